import Verif.Data.X00
import Verif.Data.X01
import Verif.Data.X02
import Verif.Data.X03
import Verif.Data.X04
import Verif.Data.X05
import Verif.Data.X06
import Verif.Data.X07
import Verif.Data.X08
import Verif.Data.X09
import Verif.Data.X10
import Verif.Data.X11
import Verif.Data.X12
import Verif.Data.X13
import Verif.Data.X14
import Verif.Data.X15
/-! `/repo/assets/PhoneNumberMetadata.xml` as a tree. Generated by `tools/gen_xml.py`; do not edit. -/

namespace Phone.Data.X
open Phone.Xml

/-- what stands before the root element -/
noncomputable def prolog : List Node :=
  [.text (str% " "), .comment, .text (str% "\n\n"),
   .docType, .text (str% "\n\n")]
/-- what stands after the root element -/
noncomputable def epilog : List Node :=
  [.text (str% "\n")]
/-- the territories, each with what stands before it and its attributes -/
noncomputable def chunks : List (List Node × List (Str × Str) × List Node) :=
  chunk00 ++
  chunk01 ++
  chunk02 ++
  chunk03 ++
  chunk04 ++
  chunk05 ++
  chunk06 ++
  chunk07 ++
  chunk08 ++
  chunk09 ++
  chunk10 ++
  chunk11 ++
  chunk12 ++
  chunk13 ++
  chunk14 ++
  chunk15
/-- the content of `territories` -/
noncomputable def territories : List Node :=
  chunks.flatMap (fun c => c.1 ++ [.elem n.territory c.2.1 c.2.2]) ++
    [.text (str% "\n\n  ")]
/-- the content of the root element -/
noncomputable def root : List Node :=
  [.text (str% "\n  ")] ++ [.elem n.territories [] territories] ++
    [.text (str% "\n")]
/-- the document -/
noncomputable def document : List Node := prolog ++ [.elem n.phoneNumberMetadata [] root] ++ epilog

end Phone.Data.X
