import Verif.Shipped.Check
import Verif.Data.T02
import Verif.Data.X02
import Verif.Data.S02
/-! Part 02 of the shipped metadata document. Generated by `tools/gen_xml.py`; do not edit. -/

namespace Phone.Shipped

theorem check02 : check Data.X.chunk02 Data.S.chunk02 = true := by kernel_rfl

theorem says02 : says Data.X.chunk02 = Data.chunk02 := by kernel_rfl

end Phone.Shipped
