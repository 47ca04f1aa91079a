import Verif.Shipped.Check
import Verif.Data.T03
import Verif.Data.X03
import Verif.Data.S03
/-! Part 03 of the shipped metadata document. Generated by `tools/gen_xml.py`; do not edit. -/

namespace Phone.Shipped

theorem check03 : check Data.X.chunk03 Data.S.chunk03 = true := by kernel_rfl

theorem says03 : says Data.X.chunk03 = Data.chunk03 := by kernel_rfl

end Phone.Shipped
