import Verif.Shipped.Check
import Verif.Data.T10
import Verif.Data.X10
import Verif.Data.S10
/-! Part 10 of the shipped metadata document. Generated by `tools/gen_xml.py`; do not edit. -/

namespace Phone.Shipped

theorem check10 : check Data.X.chunk10 Data.S.chunk10 = true := by kernel_rfl

theorem says10 : says Data.X.chunk10 = Data.chunk10 := by kernel_rfl

end Phone.Shipped
