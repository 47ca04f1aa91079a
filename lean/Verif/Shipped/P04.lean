import Verif.Shipped.Check
import Verif.Data.T04
import Verif.Data.X04
import Verif.Data.S04
/-! Part 04 of the shipped metadata document. Generated by `tools/gen_xml.py`; do not edit. -/

namespace Phone.Shipped

theorem check04 : check Data.X.chunk04 Data.S.chunk04 = true := by kernel_rfl

theorem says04 : says Data.X.chunk04 = Data.chunk04 := by kernel_rfl

end Phone.Shipped
