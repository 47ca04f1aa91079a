import Verif.Data.T00
import Verif.Data.T01
import Verif.Data.T02
import Verif.Data.T03
import Verif.Data.T04
import Verif.Data.T05
import Verif.Data.T06
import Verif.Data.T07
import Verif.Data.T08
import Verif.Data.T09
import Verif.Data.T10
import Verif.Data.T11
import Verif.Data.T12
import Verif.Data.T13
import Verif.Data.T14
import Verif.Data.T15
/-! All territories of `/repo/assets/PhoneNumberMetadata.xml`. Generated by `tools/gen_data.py`. -/

namespace Phone.Data

/-- all territories in document order -/
noncomputable def territories : List Loader.Metadata :=
  chunk00 ++
  chunk01 ++
  chunk02 ++
  chunk03 ++
  chunk04 ++
  chunk05 ++
  chunk06 ++
  chunk07 ++
  chunk08 ++
  chunk09 ++
  chunk10 ++
  chunk11 ++
  chunk12 ++
  chunk13 ++
  chunk14 ++
  chunk15

end Phone.Data
