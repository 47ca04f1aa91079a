import Verif.Shipped.Check
import Verif.Data.T12
import Verif.Data.X12
import Verif.Data.S12
/-! Part 12 of the shipped metadata document. Generated by `tools/gen_xml.py`; do not edit. -/

namespace Phone.Shipped

theorem check12 : check Data.X.chunk12 Data.S.chunk12 = true := by kernel_rfl

theorem says12 : says Data.X.chunk12 = Data.chunk12 := by kernel_rfl

end Phone.Shipped
