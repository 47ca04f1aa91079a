import Verif.Data.T08
import Verif.Data.T09
import Verif.Data.T10
import Verif.Data.T11
import Verif.Builtin.Check
/-! The territories of `Verif/Data` pass the checks of `Verif/Builtin/Check` (kernel evaluation). -/

namespace Phone.Builtin

theorem chunk08 : Data.chunk08.all goodTerritory = true := by kernel_rfl
theorem chunk09 : Data.chunk09.all goodTerritory = true := by kernel_rfl
theorem chunk10 : Data.chunk10.all goodTerritory = true := by kernel_rfl
theorem chunk11 : Data.chunk11.all goodTerritory = true := by kernel_rfl

end Phone.Builtin
