import Verif.Shipped.P00
import Verif.Shipped.P01
import Verif.Shipped.P02
import Verif.Shipped.P03
import Verif.Shipped.P04
import Verif.Shipped.P05
import Verif.Shipped.P06
import Verif.Shipped.P07
import Verif.Shipped.P08
import Verif.Shipped.P09
import Verif.Shipped.P10
import Verif.Shipped.P11
import Verif.Shipped.P12
import Verif.Shipped.P13
import Verif.Shipped.P14
import Verif.Shipped.P15
import Verif.Data.All
import Verif.Data.XAll
import Verif.Data.SAll
/-! All parts of the shipped metadata document. Generated by `tools/gen_xml.py`; do not edit. -/

namespace Phone.Shipped

theorem check_all : check Data.X.chunks Data.S.body = true := by
  unfold Data.X.chunks Data.S.body
  exact check_append (check_append (check_append (check_append (check_append (check_append (check_append (check_append
    (check_append (check_append (check_append (check_append (check_append (check_append (check_append (check00)
    check01) check02) check03) check04) check05) check06) check07) check08) check09) check10) check11) check12)
    check13) check14) check15

theorem says_all : says Data.X.chunks = Data.territories := by
  unfold Data.X.chunks Data.territories
  simp only [says_append, says00, says01, says02, says03, says04, says05, says06, says07, says08, says09, says10, says11, says12, says13, says14, says15]

end Phone.Shipped
