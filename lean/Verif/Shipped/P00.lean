import Verif.Shipped.Check
import Verif.Data.T00
import Verif.Data.X00
import Verif.Data.S00
/-! Part 00 of the shipped metadata document. Generated by `tools/gen_xml.py`; do not edit. -/

namespace Phone.Shipped

theorem check00 : check Data.X.chunk00 Data.S.chunk00 = true := by kernel_rfl

theorem says00 : says Data.X.chunk00 = Data.chunk00 := by kernel_rfl

end Phone.Shipped
