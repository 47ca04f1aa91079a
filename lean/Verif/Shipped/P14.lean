import Verif.Shipped.Check
import Verif.Data.T14
import Verif.Data.X14
import Verif.Data.S14
/-! Part 14 of the shipped metadata document. Generated by `tools/gen_xml.py`; do not edit. -/

namespace Phone.Shipped

theorem check14 : check Data.X.chunk14 Data.S.chunk14 = true := by kernel_rfl

theorem says14 : says Data.X.chunk14 = Data.chunk14 := by kernel_rfl

end Phone.Shipped
