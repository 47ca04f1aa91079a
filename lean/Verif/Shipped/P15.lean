import Verif.Shipped.Check
import Verif.Data.T15
import Verif.Data.X15
import Verif.Data.S15
/-! Part 15 of the shipped metadata document. Generated by `tools/gen_xml.py`; do not edit. -/

namespace Phone.Shipped

theorem check15 : check Data.X.chunk15 Data.S.chunk15 = true := by kernel_rfl

theorem says15 : says Data.X.chunk15 = Data.chunk15 := by kernel_rfl

end Phone.Shipped
