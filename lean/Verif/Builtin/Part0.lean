import Verif.Data.T00
import Verif.Data.T01
import Verif.Data.T02
import Verif.Data.T03
import Verif.Builtin.Check
/-! The territories of `Verif/Data` pass the checks of `Verif/Builtin/Check` (kernel evaluation). -/

namespace Phone.Builtin

theorem chunk00 : Data.chunk00.all goodTerritory = true := by kernel_rfl
theorem chunk01 : Data.chunk01.all goodTerritory = true := by kernel_rfl
theorem chunk02 : Data.chunk02.all goodTerritory = true := by kernel_rfl
theorem chunk03 : Data.chunk03.all goodTerritory = true := by kernel_rfl

end Phone.Builtin
