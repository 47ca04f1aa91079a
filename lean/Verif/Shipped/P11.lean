import Verif.Shipped.Check
import Verif.Data.T11
import Verif.Data.X11
import Verif.Data.S11
/-! Part 11 of the shipped metadata document. Generated by `tools/gen_xml.py`; do not edit. -/

namespace Phone.Shipped

theorem check11 : check Data.X.chunk11 Data.S.chunk11 = true := by kernel_rfl

theorem says11 : says Data.X.chunk11 = Data.chunk11 := by kernel_rfl

end Phone.Shipped
