import Verif.Basic.KernelRfl
import Verif.Props.Postcard
import Verif.Basic.StrLemmas
/-! # C68: the built-in database is the one parsed from the metadata file -/

namespace Phone.Loader

/-- If there is a result, it has the property. -/
def Ensures {ε α : Type} (o : Outcome ε α) (P : α → Prop) : Prop := ∀ a, o = .ok a → P a

theorem Ensures.bind {ε α β : Type} {o : Outcome ε α} {P : α → Prop} {f : α → Outcome ε β} {Q : β → Prop} (h : Ensures o P)
    (hf : ∀ a, P a → Ensures (f a) Q) : Ensures (o >>= f) Q := by
  intro b hb
  cases o with
  | ok a => exact hf a (h a rfl) b hb
  | err e => cases hb
  | panic p => cases hb

theorem Ensures.ok {ε α : Type} {a : α} {P : α → Prop} (h : P a) : Ensures (.ok a : Outcome ε α) P := by
  intro b hb
  cases hb
  exact h

theorem Ensures.err {ε α : Type} {e : ε} {P : α → Prop} : Ensures (.err e : Outcome ε α) P := by
  intro b hb
  cases hb

theorem Ensures.panic {ε α : Type} {p : Panic} {P : α → Prop} : Ensures (.panic p : Outcome ε α) P := by
  intro b hb
  cases hb

theorem Ensures.ite {ε α : Type} {p : Prop} [Decidable p] {a b : Outcome ε α} {P : α → Prop} (ha : Ensures a P)
    (hb : Ensures b P) : Ensures (if p then a else b) P := by
  split
  · exact ha
  · exact hb

theorem Ensures.any {ε α : Type} (o : Outcome ε α) : Ensures o fun _ => True := fun _ _ => trivial

theorem mismatched_ensures {α : Type} {n : Raw} {P : α → Prop} : Ensures (mismatched n : Outcome LoadErr α) P :=
  (Ensures.any _).bind fun _ _ => .err

theorem unhandledElement_ensures {α : Type} {p : Str} {n : Raw} {P : α → Prop} :
    Ensures (unhandledElement p n : Outcome LoadErr α) P :=
  (Ensures.any _).bind fun _ _ => .err

theorem parse_ensures (s : Str) : Ensures (Outcome.okOr LoadErr.integer (parseUInt u16Bound s)) fun n => n < 65536 := by
  intro n h
  cases hp : parseUInt u16Bound s with
  | none => rw [hp] at h; cases h
  | some v =>
    rw [hp] at h
    cases h
    exact (parseUInt_eq_some hp).1

theorem lengthPart_ensures (p : Str) : Ensures (lengthPart p) fun l => ∀ n ∈ l, n < 65536 := by
  unfold lengthPart
  split
  · exact .panic
  · refine .ite ?_ ?_
    · split
      · refine (Ensures.any _).bind fun _ _ => (parse_ensures _).bind fun a ha => .ite .panic ?_
        refine (Ensures.any _).bind fun _ _ => (parse_ensures _).bind fun b hb => .ite .panic (.ok ?_)
        intro n hn
        rw [List.mem_range'_1] at hn
        omega
      · exact .ok (by simp)
    · exact (parse_ensures _).bind fun a ha => .ok (by simpa using ha)

theorem lengthParts_ensures : ∀ ps : List Str, Ensures (lengthParts ps) fun l => ∀ n ∈ l, n < 65536
  | [] => .ok (by simp)
  | p :: ps => by
    unfold lengthParts
    refine (lengthPart_ensures _).bind fun a ha => (lengthParts_ensures ps).bind fun b hb => .ok ?_
    intro n hn
    rcases List.mem_append.1 hn with h | h
    · exact ha n h
    · exact hb n h

/-- The lengths in the description are values of `u16`. -/
def SmallD (d : Descriptor) : Prop := (∀ n ∈ d.possibleLength, n < 65536) ∧ ∀ n ∈ d.possibleLocalLength, n < 65536

theorem lengthAttrs_ensures : ∀ (as : List Attr) (d : Descriptor), SmallD d → Ensures (lengthAttrs d as) SmallD
  | [], _, h => .ok h
  | a :: as, d, h => by
    unfold lengthAttrs
    refine (Ensures.any _).bind fun x _ => .ite ?_ (.ite ?_ .err)
    · exact (lengthParts_ensures _).bind fun l hl => lengthAttrs_ensures as _ ⟨hl, h.2⟩
    · exact (lengthParts_ensures _).bind fun l hl => lengthAttrs_ensures as _ ⟨h.1, hl⟩

theorem descriptor_ensures : ∀ (f : Nat) (n : Raw) (d : Descriptor) (es : List Event), SmallD d →
    Ensures (descriptor f n d es) fun x => SmallD x.1
  | 0, _, _, _, _ => .err
  | _ + 1, _, _, [], _ => .err
  | f + 1, n, d, e :: es, h => by
    unfold descriptor
    split
    · exact descriptor_ensures f n d es h
    · exact descriptor_ensures f n d es h
    · refine .ite ?_ (.ite ?_ unhandledElement_ensures)
      · exact (Ensures.any _).bind fun x _ => descriptor_ensures f n _ _ h
      · exact (Ensures.any _).bind fun x _ => descriptor_ensures f n _ _ h
    · refine .ite ?_ unhandledElement_ensures
      exact (lengthAttrs_ensures _ _ h).bind fun d hd => descriptor_ensures f n d _ hd
    · exact .ite (.ok h) mismatched_ensures
    · exact .err
    · exact .err
    · exact .err

/-- All numbers in the territory are values of `u16`. -/
def SmallM (m : Metadata) : Prop :=
  (∀ c, m.countryCode = some c → c < 65536) ∧ SmallD m.defaults.descriptor ∧
  ∀ d, some d ∈ [m.general, m.fixedLine, m.mobile, m.tollFree, m.premiumRate, m.sharedCost, m.personalNumber, m.voip, m.pager,
    m.uan, m.emergency, m.voicemail, m.shortCode, m.standardRate, m.carrier, m.noInternational] → SmallD d

theorem territoryAttr_ensures (m : Metadata) (k v : Str) (h : SmallM m) : Ensures (territoryAttr m k v) SmallM := by
  unfold territoryAttr
  refine .ite (.ok h) <| .ite ?_ <| .ite (.ok h) <| .ite (.ok h) <| .ite (.ok h) <| .ite (.ok h) <| .ite (.ok h) <|
    .ite (.ok h) <| .ite ?_ <| .ite (.ok h) <| .ite ?_ <| .ite (.ok h) <| .ite ?_ <| .ite (.ok h) .err
  · refine (parse_ensures v).bind fun c hc => .ok ⟨?_, h.2⟩
    intro c' hc'
    simp only [Option.some.injEq] at hc'
    omega
  · exact (Ensures.any _).bind fun _ _ => .ok h
  · exact (Ensures.any _).bind fun _ _ => .ok h
  · exact (Ensures.any _).bind fun _ _ => .ok h

theorem territoryAttrs_ensures : ∀ (as : List Attr) (m : Metadata), SmallM m → Ensures (territoryAttrs m as) SmallM
  | [], _, h => .ok h
  | a :: as, m, h => by
    unfold territoryAttrs
    exact (Ensures.any _).bind fun x _ => (territoryAttr_ensures m _ _ h).bind fun m' hm => territoryAttrs_ensures as m' hm

theorem setDescriptor_small (m m' : Metadata) (n : Raw) (d : Descriptor) (h : SmallM m) (hd : SmallD d)
    (hs : setDescriptor m n d = some m') : SmallM m' := by
  obtain ⟨h1, h2, h3⟩ := h
  simp only [List.mem_cons, List.not_mem_nil, or_false] at h3
  have key : ∀ (p : Bool) (a : Metadata) (o : Option Metadata), SmallM a → (o = some m' → SmallM m') →
      (if p then some a else o) = some m' → SmallM m' := by
    intro p a o ha ho hs
    cases p with
    | true =>
      cases hs
      exact ha
    | false => exact ho hs
  have hn : (none : Option Metadata) = some m' → SmallM m' := fun h => by cases h
  unfold setDescriptor at hs
  refine key _ _ _ ?_ (key _ _ _ ?_ (key _ _ _ ?_ (key _ _ _ ?_ (key _ _ _ ?_ (key _ _ _ ?_ (key _ _ _ ?_ (key _ _ _ ?_
    (key _ _ _ ?_ (key _ _ _ ?_ (key _ _ _ ?_ (key _ _ _ ?_ (key _ _ _ ?_ hn)))))))))))) hs
  all_goals
    refine ⟨h1, h2, ?_⟩
    simp only [List.mem_cons, List.not_mem_nil, or_false, Option.some.injEq]
    intro x hx
    grind

theorem territoryLoop_ensures (f : Nat) : ∀ (m : Metadata) (es : List Event), SmallM m →
    Ensures (territoryLoop f m es) fun x => SmallM x.1 := by
  induction f with
  | zero => intro m es _; exact .err
  | succ f ih =>
    intro m es h
    cases es with
    | nil => exact .err
    | cons e es =>
      unfold territoryLoop
      split
      · exact ih m es h
      · exact ih m es h
      · refine .ite ?_ (.ite ?_ (.ite ?_ unhandledElement_ensures))
        · exact (Ensures.any _).bind fun x _ => ih m _ h
        · refine (descriptor_ensures f _ _ _ h.2.1).bind fun x hx => ih _ _ ?_
          cases hs : setDescriptor m _ x.1 with
          | none => exact h
          | some m' => exact setDescriptor_small m m' _ _ h hx hs
        · exact (Ensures.any _).bind fun x _ => ih _ _ h
      · exact .ite (.ok h) mismatched_ensures
      · exact .err
      · exact .err
      · exact .err
      · exact .err

theorem small_empty : SmallM {} := by
  refine ⟨by simp, ⟨by simp, by simp⟩, by simp⟩

theorem territories_ensures (f : Nat) : ∀ (acc : List Metadata) (es : List Event), (∀ m ∈ acc, SmallM m) →
    Ensures (territories f acc es) fun x => ∀ m ∈ x.1, SmallM m := by
  induction f with
  | zero => intro m es _; exact .err
  | succ f ih =>
    intro acc es h
    cases es with
    | nil => exact .err
    | cons e es =>
      unfold territories
      split
      · exact ih acc es h
      · exact ih acc es h
      · refine .ite ?_ ?_
        · refine Ensures.bind (P := fun x => SmallM x.1) ?_ fun x hx => ih _ _ ?_
          · exact (territoryAttrs_ensures _ _ small_empty).bind fun m hm => territoryLoop_ensures f m _ hm
          · intro m hm
            rcases List.mem_append.1 hm with h' | h'
            · exact h m h'
            · rw [List.mem_singleton.1 h']
              exact hx
        · exact (Ensures.any _).bind fun x _ => ih _ _ h
      · exact .ite (.ok h) mismatched_ensures
      · exact .err
      · exact .err
      · exact .err
      · exact .err

/-- All numbers the loader returns are values of `u16`. -/
theorem load_small (es : List Event) (ms : List Metadata) (hl : load es = .ok ms) : ∀ m ∈ ms, SmallM m := by
  have key : ∀ (f : Nat) (acc : List Metadata) (es : List Event), (∀ m ∈ acc, SmallM m) →
      Ensures (metadata f acc es) fun ms => ∀ m ∈ ms, SmallM m := by
    intro f
    induction f with
    | zero => intro m es _; exact .err
    | succ f ih =>
      intro acc es h
      cases es with
      | nil => exact .err
      | cons e es =>
        unfold metadata
        split
        · exact ih acc es h
        · exact ih acc es h
        · exact ih acc es h
        · refine .ite (ih _ _ h) (.ite ?_ ?_)
          · refine (territories_ensures f [] _ (by simp)).bind fun x hx => ih _ _ ?_
            intro m hm
            rcases List.mem_append.1 hm with h' | h'
            · exact h m h'
            · exact hx m h'
          · exact (Ensures.any _).bind fun x _ => ih _ _ h
        · exact .ite (.ok h) mismatched_ensures
        · exact .err
        · exact .err
        · exact .err
  exact key _ [] es (by simp) ms hl

theorem small_typed {m : Metadata} (h : SmallM m) : Postcard.typedMetadata m := by
  obtain ⟨h1, h2, h3⟩ := h
  have ht : ∀ s : Option Str, Postcard.Lawful.typed s := fun s a _ => trivial
  have hf : ∀ f : Format, Postcard.Lawful.typed f := fun f => ⟨ht _, ht _, fun _ _ => trivial, ht _, trivial, ht _⟩
  have hd : ∀ d : Descriptor, SmallD d → Postcard.Lawful.typed d := fun d hd => ⟨ht _, hd.1, hd.2, ht _⟩
  simp only [List.mem_cons, List.not_mem_nil, or_false] at h3
  have ho : ∀ o : Option Descriptor, (∀ d, some d = o → SmallD d) → Postcard.Lawful.typed o := fun o h d he => hd d (h d he.symm)
  refine ⟨ho _ ?_, ho _ ?_, ho _ ?_, ho _ ?_, ho _ ?_, ho _ ?_, ho _ ?_, ho _ ?_, ho _ ?_, ho _ ?_, ho _ ?_, ho _ ?_, ho _ ?_,
    ho _ ?_, ho _ ?_, ho _ ?_, ht _, h1, ht _, ht _, ht _, ht _, ht _, ht _, fun f _ => hf f, fun f _ => hf f, trivial, ht _,
    trivial, hf _, hd _ h2⟩
  all_goals (intro d he; exact h3 d (by simp [← he]))

end Phone.Loader

namespace Phone

/-- **C68**: if `build.rs` can write `database.bin` for a metadata file and the result has fewer than 2^64 bytes, then `DEFAULT`
is exactly what `Database::parse` makes of that file, whatever the file and however patterns are compiled: the same
database, or a panic where `Database::parse` reports an error. -/
theorem C68_default (compile : Str → Option Regex) (asset : Str) (bytes : List Nat) (h : Build.main asset = .ok bytes)
    (hl : bytes.length < 2 ^ 64) : Database.default compile bytes = (Database.parse compile asset).unwrapped := by
  unfold Build.main at h
  cases hm : Loader.load (XmlReader.read asset) with
  | err e => rw [hm] at h; cases h
  | panic p => rw [hm] at h; cases h
  | ok ms =>
    rw [hm] at h
    cases h
    have := Postcard.fromBytes_toBytes ms (fun m hm' => Loader.small_typed (Loader.load_small _ ms hm m hm')) hl
    unfold Database.default Database.parse
    rw [this, hm]
    rfl

/-- A metadata file with one territory. -/
def tinyAsset : Str := str% "<phoneNumberMetadata><territories><territory id=\"AC\" countryCode=\"247\"><generalDesc>
<nationalNumberPattern>[2-9]\\d{3}</nationalNumberPattern></generalDesc></territory></territories></phoneNumberMetadata>"

/-- The hypotheses of `C68_default` are met: the bytes `build.rs` writes for a metadata file with one territory. -/
example : Build.main tinyAsset = .ok ([1, 1, 1, 10, 91, 50, 45, 57, 93, 92, 100, 123, 51, 125] ++ List.replicate 18 0 ++
    [1, 2, 65, 67, 1, 247, 1] ++ List.replicate 21 0) := by kernel_rfl

end Phone
