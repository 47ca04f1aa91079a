import Verif.Shipped.Check
import Verif.Data.T13
import Verif.Data.X13
import Verif.Data.S13
/-! Part 13 of the shipped metadata document. Generated by `tools/gen_xml.py`; do not edit. -/

namespace Phone.Shipped

theorem check13 : check Data.X.chunk13 Data.S.chunk13 = true := by kernel_rfl

theorem says13 : says Data.X.chunk13 = Data.chunk13 := by kernel_rfl

end Phone.Shipped
