import Verif.Shipped.Check
import Verif.Data.T05
import Verif.Data.X05
import Verif.Data.S05
/-! Part 05 of the shipped metadata document. Generated by `tools/gen_xml.py`; do not edit. -/

namespace Phone.Shipped

theorem check05 : check Data.X.chunk05 Data.S.chunk05 = true := by kernel_rfl

theorem says05 : says Data.X.chunk05 = Data.chunk05 := by kernel_rfl

end Phone.Shipped
