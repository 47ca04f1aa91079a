import Verif.Shipped.Check
import Verif.Data.T01
import Verif.Data.X01
import Verif.Data.S01
/-! Part 01 of the shipped metadata document. Generated by `tools/gen_xml.py`; do not edit. -/

namespace Phone.Shipped

theorem check01 : check Data.X.chunk01 Data.S.chunk01 = true := by kernel_rfl

theorem says01 : says Data.X.chunk01 = Data.chunk01 := by kernel_rfl

end Phone.Shipped
