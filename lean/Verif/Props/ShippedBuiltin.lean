import Verif.Builtin.Db
import Verif.Props.Shipped
import Verif.Props.Size
/-! # C67 and C68 for the shipped file: from the text of the asset to the built-in database -/

namespace Phone.Shipped

theorem territories_size : Postcard.listSize Data.territories < 2 ^ 64 := by
  have h : ∀ {l : List Loader.Metadata}, Nat.ble (Postcard.listSize l) 10000000 = true → Postcard.listSize l ≤ 10000000 :=
    fun h => Nat.le_of_ble_eq_true h
  have h00 : Postcard.listSize Data.chunk00 ≤ 10000000 := h (by kernel_rfl)
  have h01 : Postcard.listSize Data.chunk01 ≤ 10000000 := h (by kernel_rfl)
  have h02 : Postcard.listSize Data.chunk02 ≤ 10000000 := h (by kernel_rfl)
  have h03 : Postcard.listSize Data.chunk03 ≤ 10000000 := h (by kernel_rfl)
  have h04 : Postcard.listSize Data.chunk04 ≤ 10000000 := h (by kernel_rfl)
  have h05 : Postcard.listSize Data.chunk05 ≤ 10000000 := h (by kernel_rfl)
  have h06 : Postcard.listSize Data.chunk06 ≤ 10000000 := h (by kernel_rfl)
  have h07 : Postcard.listSize Data.chunk07 ≤ 10000000 := h (by kernel_rfl)
  have h08 : Postcard.listSize Data.chunk08 ≤ 10000000 := h (by kernel_rfl)
  have h09 : Postcard.listSize Data.chunk09 ≤ 10000000 := h (by kernel_rfl)
  have h10 : Postcard.listSize Data.chunk10 ≤ 10000000 := h (by kernel_rfl)
  have h11 : Postcard.listSize Data.chunk11 ≤ 10000000 := h (by kernel_rfl)
  have h12 : Postcard.listSize Data.chunk12 ≤ 10000000 := h (by kernel_rfl)
  have h13 : Postcard.listSize Data.chunk13 ≤ 10000000 := h (by kernel_rfl)
  have h14 : Postcard.listSize Data.chunk14 ≤ 10000000 := h (by kernel_rfl)
  have h15 : Postcard.listSize Data.chunk15 ≤ 10000000 := h (by kernel_rfl)
  have app : ∀ {a b : List Loader.Metadata} {m : Nat}, Postcard.listSize a ≤ m → Postcard.listSize b ≤ 10000000 →
      Postcard.listSize (a ++ b) ≤ m + 10000000 := by
    intro a b m ha hb
    have := Postcard.listSize_append a b
    omega
  refine Nat.lt_of_le_of_lt (app (app (app (app (app (app (app (app (app (app (app (app (app (app (app h00 h01) h02) h03) h04)
    h05) h06) h07) h08) h09) h10) h11) h12) h13) h14) h15) (by decide)

theorem parse_of {compile : Str → Option Regex} {s : Str} {ms : List Loader.Metadata} {d : Database}
    (h : Loader.load (XmlReader.read s) = .ok ms) (h' : Database.from compile ms = .ok d) : Database.parse compile s = .ok d := by
  unfold Database.parse
  rw [h]
  exact h'

theorem main_of {s : Str} {ms : List Loader.Metadata} (h : Loader.load (XmlReader.read s) = .ok ms) :
    Build.main s = .ok (Postcard.toBytes ms) := by
  unfold Build.main
  rw [h]
  rfl

theorem default_of {compile : Str → Option Regex} {s : Str} {ms : List Loader.Metadata} {d : Database}
    (h : Loader.load (XmlReader.read s) = .ok ms) (h' : Database.from compile ms = .ok d) (hl : Postcard.listSize ms < 2 ^ 64) :
    ∃ bytes, Build.main s = .ok bytes ∧ Database.default compile bytes = .ok d := by
  refine ⟨_, main_of h, ?_⟩
  rw [C68_default compile _ _ (main_of h) (Nat.lt_of_le_of_lt (Postcard.toBytes_le _) hl), parse_of h h']
  rfl

/-- **C67**: `Database::parse` of the shipped file is the built-in database, with patterns compiled by the model of `Regex::new`. -/
theorem C67_builtin : Database.parse Builtin.compile Data.S.text = .ok Builtin.db :=
  parse_of C67_load Builtin.from_builtin

/-- **C68**: `build.rs` succeeds on the shipped file, and `DEFAULT` made from the bytes it writes is the built-in database. -/
theorem C68_builtin : ∃ bytes, Build.main Data.S.text = .ok bytes ∧ Database.default Builtin.compile bytes = .ok Builtin.db :=
  default_of C67_load Builtin.from_builtin territories_size

end Phone.Shipped
