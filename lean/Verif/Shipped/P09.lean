import Verif.Shipped.Check
import Verif.Data.T09
import Verif.Data.X09
import Verif.Data.S09
/-! Part 09 of the shipped metadata document. Generated by `tools/gen_xml.py`; do not edit. -/

namespace Phone.Shipped

theorem check09 : check Data.X.chunk09 Data.S.chunk09 = true := by kernel_rfl

theorem says09 : says Data.X.chunk09 = Data.chunk09 := by kernel_rfl

end Phone.Shipped
