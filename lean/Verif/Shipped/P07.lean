import Verif.Shipped.Check
import Verif.Data.T07
import Verif.Data.X07
import Verif.Data.S07
/-! Part 07 of the shipped metadata document. Generated by `tools/gen_xml.py`; do not edit. -/

namespace Phone.Shipped

theorem check07 : check Data.X.chunk07 Data.S.chunk07 = true := by kernel_rfl

theorem says07 : says Data.X.chunk07 = Data.chunk07 := by kernel_rfl

end Phone.Shipped
