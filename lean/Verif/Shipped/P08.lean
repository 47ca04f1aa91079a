import Verif.Shipped.Check
import Verif.Data.T08
import Verif.Data.X08
import Verif.Data.S08
/-! Part 08 of the shipped metadata document. Generated by `tools/gen_xml.py`; do not edit. -/

namespace Phone.Shipped

theorem check08 : check Data.X.chunk08 Data.S.chunk08 = true := by kernel_rfl

theorem says08 : says Data.X.chunk08 = Data.chunk08 := by kernel_rfl

end Phone.Shipped
