import Verif.Data.T04
import Verif.Data.T05
import Verif.Data.T06
import Verif.Data.T07
import Verif.Builtin.Check
/-! The territories of `Verif/Data` pass the checks of `Verif/Builtin/Check` (kernel evaluation). -/

namespace Phone.Builtin

theorem chunk04 : Data.chunk04.all goodTerritory = true := by kernel_rfl
theorem chunk05 : Data.chunk05.all goodTerritory = true := by kernel_rfl
theorem chunk06 : Data.chunk06.all goodTerritory = true := by kernel_rfl
theorem chunk07 : Data.chunk07.all goodTerritory = true := by kernel_rfl

end Phone.Builtin
