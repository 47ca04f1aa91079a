import Verif.Shipped.Check
import Verif.Data.T06
import Verif.Data.X06
import Verif.Data.S06
/-! Part 06 of the shipped metadata document. Generated by `tools/gen_xml.py`; do not edit. -/

namespace Phone.Shipped

theorem check06 : check Data.X.chunk06 Data.S.chunk06 = true := by kernel_rfl

theorem says06 : says Data.X.chunk06 = Data.chunk06 := by kernel_rfl

end Phone.Shipped
