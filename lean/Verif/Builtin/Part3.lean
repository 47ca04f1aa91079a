import Verif.Data.T12
import Verif.Data.T13
import Verif.Data.T14
import Verif.Data.T15
import Verif.Builtin.Check
/-! The territories of `Verif/Data` pass the checks of `Verif/Builtin/Check` (kernel evaluation). -/

namespace Phone.Builtin

theorem chunk12 : Data.chunk12.all goodTerritory = true := by kernel_rfl
theorem chunk13 : Data.chunk13.all goodTerritory = true := by kernel_rfl
theorem chunk14 : Data.chunk14.all goodTerritory = true := by kernel_rfl
theorem chunk15 : Data.chunk15.all goodTerritory = true := by kernel_rfl

end Phone.Builtin
