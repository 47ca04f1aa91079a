import Verif.Props.ValidBack
import Verif.Regex.Using
import Verif.Regex.Ladder
import Verif.Props.NationalTextBuiltin
import Verif.Props.DashesBuiltin
/-! # C82: the national form of valid numbers is read back -/

namespace Phone
variable [UnicodeTables]

omit [UnicodeTables] in
theorem listRel_mem {α β : Type} {R : α → β → Prop} {l : List α} {m : List β} (h : Spec.ListRel R l m) {b : β} (hb : b ∈ m) :
    ∃ a ∈ l, R a b := by
  induction h with
  | nil => cases hb
  | cons h _ ih =>
    rcases List.mem_cons.1 hb with rfl | hb
    · exact ⟨_, by simp, h⟩
    · obtain ⟨a, ha, hr⟩ := ih hb; exact ⟨a, by simp [ha], hr⟩

omit [UnicodeTables] in
theorem listRel_mem_left {α β : Type} {R : α → β → Prop} {l : List α} {m : List β} (h : Spec.ListRel R l m) {a : α} (ha : a ∈ l) :
    ∃ b ∈ m, R a b := by
  induction h with
  | nil => cases ha
  | cons h _ ih =>
    rcases List.mem_cons.1 ha with rfl | ha
    · exact ⟨_, by simp, h⟩
    · obtain ⟨b, hb, hr⟩ := ih ha; exact ⟨b, by simp [hb], hr⟩

namespace Builtin

/-- What the national form of a number without carrier begins with: nothing, or the national prefix if the region has a format with a
rule; and when it is read back. Argentina, Belarus and Gabon are excepted. -/
theorem national_lead (n : PhoneNumber) (hlen : 2 ≤ n.national.display.length ∧ n.national.display.length ≤ 17) (hv : n.national.value ≠ 0)
    (hcar : n.carrier = none) (hex : ∀ md', Spec.MetadataFor db n md' → md'.id ∉ [str% "AR", str% "BY", str% "GA"])
    (s : Str) (h : format n .national = .ok s)
    (hext : ∀ e, n.extension = some e → (e ≠ [] ∧ e.length ≤ 7 ∧ ∀ c ∈ e, isDigit c = true) ∧ ' ' ∈ s) :
    ∃ md' lead, Spec.MetadataFor db n md' ∧ (lead = [] ∧
        (md'.nationalPrefix.isSome → ∀ f, Spec.Chosen md' n.national.display .national none f → ∀ r, f.nationalPrefix = some r → 'N' ∉ r) ∨ md'.nationalPrefix = some lead ∧ ∃ f ∈ md'.formats, (∃ r, f.nationalPrefix = some r ∧ 'N' ∈ r) ∧ Spec.Applies f n.national.display) ∧
      (lead ++ n.national.display) <+: s.filter isDigit ∧
      ∀ (c : Id) (md : Metadata), db.byId c.asRef = some md → md.countryCode = n.code.value → ∀ car : Option Str,
        3 ≤ (lead ++ n.national.display).length → Spec.NotDialled db (some c) (lead ++ n.national.display) →
        ¬ Spec.OwnCode md (lead ++ n.national.display) → Spec.NationalPart md (lead ++ n.national.display) n.national.display car →
        parse (some c) s = .ok ⟨⟨n.code.value, .default⟩, n.national, n.extension, car⟩ := by
  obtain ⟨md', _, hmd', _⟩ := C64_national db n none s h
  have key : ∃ lead, (lead = [] ∧
        (md'.nationalPrefix.isSome → ∀ f, Spec.Chosen md' n.national.display .national none f → ∀ r, f.nationalPrefix = some r → 'N' ∉ r) ∨ md'.nationalPrefix = some lead ∧ ∃ f ∈ md'.formats, (∃ r, f.nationalPrefix = some r ∧ 'N' ∈ r) ∧ Spec.Applies f n.national.display) ∧
      ∀ md, Spec.MetadataFor db n md → (∀ f, Spec.Chosen md n.national.display .national none f →
      Spec.Punctuates f ∧ Spec.LeadDigits md f n lead) ∧ (Spec.NoneChosen md n.national.display .national none → lead = []) := by
    rcases chosen_or_none md' n.national.display .national none with ⟨f, hf⟩ | hno
    · obtain ⟨h1, _, _, lead, h2, h3⟩ := chosen_national hmd' hcar (hex _ hmd') hf
      refine ⟨lead, ?_, fun md hm => ?_⟩
      · rcases h3 with ⟨rfl, h3⟩ | ⟨e, h3⟩
        · refine .inl ⟨rfl, fun _ g hg => ?_⟩
          obtain rfl := chosen_unique hf hg
          exact h3
        · cases hp : md'.nationalPrefix with
          | none => rw [hp] at e; exact .inl ⟨e, fun h => nomatch h⟩
          | some np =>
            rw [hp] at e
            refine .inr ⟨by rw [e]; rfl, f, ?_, h3, ?_⟩
            · rcases hf with hf | ⟨_, b, a, hf, _⟩
              · cases hf
              · have : f ∈ Spec.formatsFor md' .national := by rw [hf]; simp
                simpa [Spec.formatsFor] using this
            · rcases hf with hf | ⟨_, b, a, _, happ, _⟩
              · cases hf
              · exact happ
      obtain rfl := metadataFor_unique hm hmd'
      refine ⟨fun g hg => ?_, fun hno => ?_⟩
      · obtain rfl := chosen_unique hf hg
        exact ⟨h1, h2⟩
      · rcases hf with hf | ⟨_, b, a, hf, happ, _⟩
        · cases hf
        · exact absurd happ (hno.2 f (by rw [hf]; simp))
    · refine ⟨[], .inl ⟨rfl, fun _ f hf => ?_⟩, fun md hm => ?_⟩
      · rcases hf with hf | ⟨_, b, a, hf, happ, _⟩
        · cases hf
        · exact absurd happ (hno.2 f (by rw [hf]; simp))
      obtain rfl := metadataFor_unique hm hmd'
      refine ⟨fun f hf => ?_, fun _ => rfl⟩
      rcases hf with hf | ⟨_, b, a, hf, happ, _⟩
      · cases hf
      · exact absurd happ (hno.2 f (by rw [hf]; simp))
  obtain ⟨lead, hl, hlead⟩ := key
  obtain ⟨md'', nat, hm'', hs, _, hfil, hlast⟩ := national_shape h lead hlead
  obtain rfl := metadataFor_unique hm'' hmd'
  refine ⟨md'', lead, hmd', hl, ?_, ?_⟩
  · rw [hs, List.filter_append, hfil]; exact List.prefix_append _ _
  · intro c md hmd hcode car r1 r2 r3 r4
    have hcc : md.countryCode < 65536 := by
      have := (good_iff (.inl ⟨_, hmd⟩)).1
      omega
    have ht : ∀ t, md.nationalPrefixTransformRule = some t → Spec.DigitTemplate t := digitTemplates (.inl ⟨_, hmd⟩)
    refine C72_national db n none c md hmd hcode hcc ht hlen hv lead hlead r1 r2 r3 car r4 s h fun e he => ⟨(hext e he).1, (hext e he).2, ?_⟩
    intro md hm
    obtain rfl := metadataFor_unique hm hmd'
    refine ⟨(readable_iff (by obtain ⟨l, hl⟩ := hm; exact .inr ⟨_, _, hl, by simp⟩)).2, ?_⟩
    obtain ⟨t, d, h1, h2⟩ := hlast (fun f hf => by
      obtain ⟨_, k1, k2, _⟩ := chosen_national hm hcar (hex _ hm) hf
      exact ⟨k1, k2⟩) (by intro h0; rw [h0] at hlen; simp at hlen)
    exact ⟨t, d, h2, by rw [hs, h1, he]; rfl⟩

/-- No digits that the descriptors accept and that fit the runs given can be continued to what is looked for. -/
def apart (m : Loader.Metadata) (x : List Run) (t : Run) : Bool :=
  match m.general.bind patternOf with
  | none => false
  | some g => !clash 17 (some [g] :: t :: x) || (typedOf m).all fun d =>
      match patternOf d with
      | none => false
      | some r => !clash (d.possibleLength.foldl Nat.max 0) (some [g] :: some [r] :: t :: x)

/-- The pattern without the empty string. -/
def _root_.Phone.Re.nonempty : Re → Re
  | .cls k => .cls k
  | .cat a b => if a.nullEnd then .alt (.cat a.nonempty b) b.nonempty else .cat a.nonempty b
  | .alt a b => .alt a.nonempty b.nonempty
  | .star g a => .cat a.nonempty (.star g a)
  | .grp _ a => a.nonempty
  | _ => .cls ⟨false, []⟩

theorem nonempty_lang {r : Re} {p : Nat} {w q : Str} (h : Lang r p w q) (hw : w ≠ []) : Lang r.nonempty p w q := by
  induction h with
  | eps => exact absurd rfl hw
  | cls h => exact .cls h
  | @cat a b p u v q h1 h2 i1 i2 =>
    by_cases hu : u = []
    · subst hu
      rw [Re.nonempty, if_pos (lang_nullEnd h1)]
      exact .altR (i2 hw)
    · rw [Re.nonempty]
      split
      · exact .altL (.cat (i1 hu) h2)
      · exact .cat (i1 hu) h2
  | altL _ i => exact .altL (i hw)
  | altR _ i => exact .altR (i hw)
  | starNil => exact absurd rfl hw
  | starCons hu h1 h2 i1 _ => exact .cat (i1 hu) h2
  | grp _ i => exact i hw
  | bos => exact absurd rfl hw
  | eos => exact absurd rfl hw

/-- The national prefix and the digits after it: the parsing pattern matches exactly the national prefix, no group taking part. -/
def strips (m : Loader.Metadata) (x : List Run) (np : Str) : Bool :=
  match m.nationalPrefixForParsing with
  | none => true
  | some p =>
    match compile p, np with
    | some re, [c] => !re.re.nullMid && ((re.re.rests c).all fun y => Re.same y .eps || apart m x (some [y.nonempty])) &&
        (Nat.beq re.ngroups 0 && m.nationalPrefixTransformRule.isNone ||
          !Nat.beq re.ngroups 0 && apart m x (Run.step c (some [re.re.using re.ngroups])))
    | _, _ => false

/-- A pattern, and after it the end or a digit other than zero. -/
def notZero (r : Re) : Re := .cat r (.alt (.cls ⟨false, [.range '1' '9']⟩) .eos)

/-- Digits the territory accepts and that fit the runs given, written with the given digits in front, are not taken for dialled from
abroad. -/
def iddCheck (m : Loader.Metadata) (x : List Run) (lead : Str) : Bool :=
  match m.internationalPrefix with
  | none => true
  | some p => match compile p with
    | none => false
    | some re => apart m x (Run.steps lead (some [notZero re.re]))

/-- Digits the territory accepts and that fit the runs given, written with the given digits in front, are read as they are. -/
def leadCheck (m : Loader.Metadata) (x : List Run) (lead : Str) : Bool :=
  iddCheck m x lead &&
  ((m.nationalPrefix.toList.all fun np => apart m x (some [Re.lit np])) &&
  (match lead with
    | [] => match m.nationalPrefixForParsing with
      | none => true
      | some p => match compile p with
        | none => false
        | some re => apart m x (some [re.re])
    | _ => lead.all isDigit && decide (m.nationalPrefix = some lead) && strips m x lead))

/-- The calling codes for which the national form is not covered. -/
def nationalExceptions : List Nat := [7, 54, 62, 66, 81, 82, 91, 241, 250, 359, 375, 507, 598, 974]

/-- What the digits a format is meant for fit: its last leading digits pattern, and its pattern as a whole. -/
def formatRuns (f : Loader.Format) : List Run :=
  match f.leadingDigits.getLast?.bind compile, f.pattern.bind compile with
  | some l, some p => [some [l.re], some [.cat p.re .eos]]
  | _, _ => []

/-- The rule of the format mentions the national prefix. -/
def writesPrefix (f : Loader.Format) : Bool := f.nationalPrefixFormattingRule.any fun r => r.any (· == 'N')

/-- How many digits the pattern of a format takes and what they have to begin with. -/
def rung (f : Loader.Format) : Option ((Nat × Nat) × Re) :=
  ((f.pattern.bind compile).bind (·.re.ladder)).bind fun x => match f.leadingDigits.getLast? with
    | none => some (x, .eps)
    | some l => (compile l).map fun r => (x, r.re)

def within (n : Nat) (x : Nat × Nat) : Bool := Nat.ble x.1 n && Nat.ble n x.2

/-- No format without the national prefix before one with it is meant for digits that begin with a match of the pattern. -/
def lateCheck (m : Loader.Metadata) (re : Re) : List Loader.Format → Bool
  | [] => true
  | f :: fs => (writesPrefix f || (fs.all (fun g => !writesPrefix g) || apart m (formatRuns f) (some [re]))) && lateCheck m re fs

/-- Digits `m` accepts that begin with a match of its parsing pattern are written with the national prefix by the formats of `m'`. -/
def sparedCheck (m m' : Loader.Metadata) : Bool :=
  match m.general.bind patternOf, m.nationalPrefixForParsing.bind compile with
  | some g, some re => m'.nationalPrefix.isSome && (lateCheck m re.re m'.formats &&
      let tab := (m'.formats.filter writesPrefix).filterMap rung
      (typedOf m).all fun d => match patternOf d with
        | none => false
        | some r => d.possibleLength.all fun n =>
            begun n ([some [g], some [r], some [re.re]], (tab.filter fun e => within n e.1).map (·.2)))
  | _, _ => false

/-- Digits the territory accepts are read as they are if its parsing pattern does not match at their beginning. -/
def unprefixedCheck (m : Loader.Metadata) : Bool := iddCheck m [] [] && m.nationalPrefix.toList.all fun np => apart m [] (some [Re.lit np])

def nationalCheckOn (ms part : List Loader.Metadata) : Bool :=
  part.all fun m => nationalExceptions.any (fun c => m.countryCode == some c) || ((leadCheck m [] [] ||
      unprefixedCheck m && (ms.filter (·.countryCode == m.countryCode)).all (sparedCheck m)) &&
    (ms.filter (·.countryCode == m.countryCode)).all fun m' =>
      match m'.nationalPrefix with
      | none => true
      | some np => (m'.formats.all fun f => !writesPrefix f) || (leadCheck m [] np ||
          m'.formats.all fun f => !writesPrefix f || leadCheck m (formatRuns f) np))

def nationalCheck (ms : List Loader.Metadata) : Bool := nationalCheckOn ms ms

omit [UnicodeTables] in
theorem national_check1 : nationalCheckOn Data.territories ((Data.territories.drop 0).take 50) = true := by kernel_rfl
omit [UnicodeTables] in
theorem national_check2 : nationalCheckOn Data.territories ((Data.territories.drop 50).take 50) = true := by kernel_rfl
omit [UnicodeTables] in
theorem national_check3 : nationalCheckOn Data.territories ((Data.territories.drop 100).take 50) = true := by kernel_rfl
omit [UnicodeTables] in
theorem national_check4 : nationalCheckOn Data.territories ((Data.territories.drop 150).take 50) = true := by kernel_rfl
omit [UnicodeTables] in
theorem national_check5 : nationalCheckOn Data.territories (Data.territories.drop 200) = true := by kernel_rfl

omit [UnicodeTables] in
theorem national_check : nationalCheck Data.territories = true :=
  in_parts national_check1 national_check2 national_check3 national_check4 national_check5

/-- The territories whose formats write other digits are among the exceptions; extensions are introduced by `#` in Taiwan only. -/
def otherCheck (ms : List Loader.Metadata) : Bool :=
  ms.all fun m => (!([str% "AR", str% "BY", str% "GA"].any fun i => m.id == some i) ||
      nationalExceptions.any (fun c => m.countryCode == some c)) &&
    (m.preferredExtensionPrefix != some (str% "#") || m.countryCode == some 886)

omit [UnicodeTables] in
theorem other_check : otherCheck Data.territories = true := by kernel_rfl

omit [UnicodeTables] in
theorem otherCheck_mem {ms : List Loader.Metadata} (h : otherCheck ms = true) {m : Loader.Metadata} (hm : m ∈ ms) {md : Metadata}
    (he : Spec.EntryOf compile m md) (hc : md.countryCode ∉ nationalExceptions) :
    md.id ∉ [str% "AR", str% "BY", str% "GA"] ∧ (md.preferredExtensionPrefix = some (str% "#") → md.countryCode = 886) := by
  have := List.all_eq_true.1 h m hm
  rw [Bool.and_eq_true, Bool.or_eq_true, Bool.or_eq_true] at this
  obtain ⟨h1, h2⟩ := this
  rw [he.preferredExtensionPrefix]
  constructor
  · rcases h1 with h1 | h1
    · intro hi
      rw [Bool.not_eq_true', List.any_eq_false] at h1
      exact h1 _ hi (by rw [he.id]; simp)
    · obtain ⟨k, hk, e⟩ := List.any_eq_true.1 h1
      rw [he.countryCode] at e
      have : md.countryCode = k := by simpa using e
      exact absurd (this ▸ hk) hc
  · intro hp
    rcases h2 with h2 | h2
    · rw [hp] at h2; simp at h2
    · rw [he.countryCode] at h2; simpa using h2

omit [UnicodeTables] in
theorem nationalCheck_mem {ms : List Loader.Metadata} (h : nationalCheck ms = true) {m : Loader.Metadata} (hm : m ∈ ms) {c : Nat}
    (hc : m.countryCode = some c) (hx : c ∉ nationalExceptions) :
      (leadCheck m [] [] = true ∨ unprefixedCheck m = true ∧ ∀ m' ∈ ms, m'.countryCode = some c → sparedCheck m m' = true) ∧
      ∀ m' ∈ ms, m'.countryCode = some c → ∀ np, m'.nationalPrefix = some np → ∀ f ∈ m'.formats, writesPrefix f = true →
        ∃ x, (x = [] ∨ x = formatRuns f) ∧ leadCheck m x np = true := by
  have := List.all_eq_true.1 h m hm
  rw [Bool.or_eq_true] at this
  rcases this with h2 | h2
  · obtain ⟨k, hk, e⟩ := List.any_eq_true.1 h2
    rw [hc] at e
    have : c = k := by simpa using e
    exact absurd (this ▸ hk) hx
  · rw [Bool.and_eq_true] at h2
    refine ⟨?_, fun m' hm' hc' np hnp f hf hr => ?_⟩
    · have h3 := h2.1
      rw [Bool.or_eq_true, Bool.and_eq_true, List.all_eq_true] at h3
      exact h3.imp_right fun h => ⟨h.1, fun m' hm' hc' => h.2 m' (List.mem_filter.2 ⟨hm', by rw [hc, hc']; simp⟩)⟩
    have := List.all_eq_true.1 h2.2 m' (List.mem_filter.2 ⟨hm', by rw [hc, hc']; simp⟩)
    rw [hnp] at this
    simp only [Bool.or_eq_true, List.all_eq_true] at this
    rcases this with h | h | h
    · have := h f hf
      rw [hr] at this; cases this
    · exact ⟨[], .inl rfl, h⟩
    · refine ⟨_, .inr rfl, (h f hf).resolve_left fun h => ?_⟩
      rw [hr] at h; cases h

omit [UnicodeTables] in
theorem listRel_last {α β : Type} {R : α → β → Prop} {l : List α} {m : List β} (h : Spec.ListRel R l m) :
    (l.getLast? = none ∧ m.getLast? = none) ∨ ∃ a b, l.getLast? = some a ∧ m.getLast? = some b ∧ R a b := by
  induction h with
  | nil => exact .inl ⟨rfl, rfl⟩
  | @cons a b l m h _ ih =>
    right
    rw [List.getLast?_cons, List.getLast?_cons]
    rcases ih with ⟨e1, e2⟩ | ⟨x, y, e1, e2, hr⟩
    · exact ⟨_, _, rfl, rfl, by rw [e1, e2]; exact h⟩
    · exact ⟨_, _, rfl, rfl, by rw [e1, e2]; exact hr⟩

omit [UnicodeTables] in
/-- What `rung` says of a format. -/
theorem rung_sound {f : Loader.Format} {g : Format} (h : Spec.FormatOf compile f g) {x : Nat × Nat} {r : Re} (hr : rung f = some (x, r)) :
    g.pattern.re.ladder = some x ∧ (g.leadingDigits = [] ∨ ∃ last, g.leadingDigits.getLast? = some last ∧ last.re = r) := by
  obtain ⟨s, h1, h2⟩ := h.pattern
  unfold rung at hr
  rw [h1, Option.bind_some, h2, Option.bind_some] at hr
  cases hl : g.pattern.re.ladder with
  | none => rw [hl] at hr; cases hr
  | some y =>
    rw [hl, Option.bind_some] at hr
    rcases listRel_last h.leadingDigits with ⟨e, e'⟩ | ⟨a, b, e1, e2, hab⟩
    · rw [e] at hr
      simp only [Option.some.injEq, Prod.mk.injEq] at hr
      exact ⟨by rw [hr.1], .inl (by simpa using e')⟩
    · rw [e1] at hr
      simp only [show compile a = some b from hab, Option.map_some, Option.some.injEq, Prod.mk.injEq] at hr
      exact ⟨by rw [hr.1], .inr ⟨b, e2, hr.2⟩⟩

omit [UnicodeTables] in
theorem within_iff {n : Nat} {x : Nat × Nat} : within n x = true ↔ x.1 ≤ n ∧ n ≤ x.2 := by
  rw [within, Bool.and_eq_true, Nat.ble_eq, Nat.ble_eq]

/-- A format is meant for digits whose number and beginning are what `rung` says. -/
theorem rung_applies {f : Loader.Format} {g : Format} (h : Spec.FormatOf compile f g) {x : Nat × Nat} {r : Re} (hr : rung f = some (x, r))
    {ds : Str} (hd : ∀ c ∈ ds, isDigit c = true) (hin : within ds.length x = true) {w q : Str} (e : ds = w ++ q) (hw : Lang r 0 w q) :
    Spec.Applies g ds := by
  obtain ⟨k1, k2⟩ := rung_sound h hr
  rw [within_iff] at hin
  rcases k2 with k2 | ⟨last, k2, k3⟩
  · exact .inl k2
  · refine .inr ⟨⟨last, k2, find_at_start_iff.2 ⟨w, q, e, ?_⟩⟩, ladder_whole k1 hd hin.1 hin.2⟩
    rw [k3]; exact hw

/-- The digits a format is meant for fit its runs. -/
theorem formatRuns_fit {f : Loader.Format} {g : Format} (h : Spec.FormatOf compile f g) {ds : Str} (ha : Spec.Applies g ds) :
    ∀ r ∈ formatRuns f, ∃ p, r.Fits p ds := by
  obtain ⟨s, h1, h2⟩ := h.pattern
  intro r hr
  unfold formatRuns at hr
  rw [h1, Option.bind_some, h2] at hr
  rcases listRel_last h.leadingDigits with ⟨e, _⟩ | ⟨a, b, e1, e2, hab⟩
  · rw [e] at hr; simp at hr
  · rw [e1, Option.bind_some, show compile a = some b from hab] at hr
    rcases ha with ha | ⟨⟨last, hl, m, hm, hp⟩, m', hm', ht⟩
    · rw [ha] at e2; cases e2
    · rw [e2, Option.some.injEq] at hl
      subst hl
      simp only [List.mem_cons, List.not_mem_nil, or_false] at hr
      rcases hr with rfl | rfl
      · have f := find_eq_some hm
        have hl := f.lang
        have hs := f.split
        rw [hp] at hl hs
        exact ⟨0, _, by simp, _, _, hs, hl⟩
      · have f := find_eq_some hm'
        have hl := f.lang
        have hs := f.split
        have hlen := congrArg List.length hs
        simp only [List.length_append] at hlen
        have e3 : m'.pre = [] := List.length_eq_zero_iff.1 (by rw [ht] at hlen; omega)
        have e4 : m'.post = [] := List.length_eq_zero_iff.1 (by rw [ht] at hlen; omega)
        rw [e3, e4, ht] at hl
        refine ⟨0, .cat g.pattern.re .eos, by simp, ds, [], by simp, lang_cat.2 ⟨ds, [], by simp, ?_, lang_eos.2 ⟨rfl, rfl⟩⟩⟩
        simpa using hl

/-- Soundness of `apart`. -/
theorem apart_sound {m : Loader.Metadata} {md : Metadata} (h : Spec.EntryOf compile m md) {x : List Run} {t : Run} (hc : apart m x t = true) {ds : Str}
    (hd : ∀ c ∈ ds, isDigit c = true) (hlen : ds.length ≤ 17) (hg : Spec.Accepts md.descriptors.general ds) {d : Descriptor}
    (ht : some d ∈ Spec.typed md.descriptors) (ha : Spec.Accepts d ds) (hne : d.possibleLength ≠ []) (hx : ∀ r ∈ x, ∃ p, r.Fits p ds) (p : Nat) :
    ¬ t.Fits p ds := by
  obtain ⟨g, hg1, hg2⟩ := h.general
  intro hl
  simp only [apart, hg1, Option.bind_some, patternOf_eq hg2, Bool.or_eq_true, Bool.not_eq_true', List.all_eq_true] at hc
  have fits : ∀ {r : Re}, (∃ w q, ds = w ++ q ∧ Lang r 0 w q) → Run.Fits 0 ds (some [r]) := fun {r} h => ⟨r, by simp, h⟩
  rcases hc with hc | hc
  · rw [clash_of_fits hd hlen] at hc
    · cases hc
    · intro r hr
      rcases List.mem_cons.1 hr with rfl | hr
      · exact ⟨0, fits hg.2⟩
      · rcases List.mem_cons.1 hr with rfl | hr
        · exact ⟨p, hl⟩
        · exact hx r hr
  · obtain ⟨e, he1, he2⟩ := typed_of_entry h ht
    have := hc e he1
    simp only [patternOf_eq he2] at this
    rw [Bool.not_eq_true', clash_of_fits hd] at this
    · cases this
    · have hl := ha.1.resolve_left hne
      rw [Digits.byteLen hd] at hl
      rw [← he2.possibleLength]
      rw [Nat.mod_eq_of_lt (by omega)] at hl
      exact le_foldl_max (.inl hl)
    · intro r hr
      rcases List.mem_cons.1 hr with rfl | hr
      · exact ⟨0, fits hg.2⟩
      · rcases List.mem_cons.1 hr with rfl | hr
        · exact ⟨0, fits ha.2⟩
        · rcases List.mem_cons.1 hr with rfl | hr
          · exact ⟨p, hl⟩
          · exact hx r hr

omit [UnicodeTables] in
theorem compiled_pattern {o : Option Str} {r : Option Regex} (h : Spec.OptionRel (Spec.Compiled compile) o r) :
    (o = none ∧ r = none) ∨ ∃ p re, o = some p ∧ r = some re ∧ compile p = some re := by
  cases h with
  | none => exact .inl ⟨rfl, rfl⟩
  | some h => exact .inr ⟨_, _, rfl, rfl, h⟩

theorem notZero_lang {r : Re} {p : Nat} {u v : Str} (h : Lang r p u v) (hv : ∀ c ∈ v, isDigit c = true) (h0 : ¬ ['0'] <+: v) :
    ∃ w q, u ++ v = w ++ q ∧ Lang (notZero r) p w q := by
  cases v with
  | nil => exact ⟨u, [], rfl, lang_cat.2 ⟨u, [], by simp, by simpa using h, lang_alt.2 (.inr (lang_eos.2 ⟨rfl, rfl⟩))⟩⟩
  | cons c v =>
    refine ⟨u ++ [c], v, by simp, lang_cat.2 ⟨u, [c], rfl, by simpa using h, lang_alt.2 (.inl (lang_cls.2 ⟨c, rfl, ?_⟩))⟩⟩
    have hc := hv c (by simp)
    have hn := isDigit_iff.1 hc
    have h0 : c.toNat ≠ 48 := fun h => h0 ⟨v, by rw [Char.toNat_inj.1 (show c.toNat = '0'.toNat from h)]; rfl⟩
    have e1 : ('1' : Char).toNat = 49 := rfl
    have e2 : ('9' : Char).toNat = 57 := rfl
    simp [Cls.mem, CItem.mem, e1, e2]
    omega

/-- Soundness of `iddCheck`. -/
theorem idd_of_check {m : Loader.Metadata} {md : Metadata} (h : Spec.EntryOf compile m md) {x : List Run} {lead : Str} (c1 : iddCheck m x lead = true)
    (hld : ∀ c ∈ lead, isDigit c = true) {ds : Str}
    (hd : ∀ c ∈ ds, isDigit c = true) (hlen : ds.length ≤ 17) (hg : Spec.Accepts md.descriptors.general ds) {d : Descriptor}
    (ht : some d ∈ Spec.typed md.descriptors) (ha : Spec.Accepts d ds) (hne : d.possibleLength ≠ []) (hx : ∀ r ∈ x, ∃ p, r.Fits p ds) :
    ∀ re, md.internationalPrefix = some re → ∀ m, re.find (lead ++ ds) = some m → m.pre = [] → ['0'] <+: m.post := by
  unfold iddCheck at c1
  intro re hre f hf hpre
  have f' := find_eq_some hf
  have hl := f'.lang
  have hs := f'.split
  rw [hpre] at hl hs
  rcases compiled_pattern h.internationalPrefix with ⟨_, e⟩ | ⟨p, re', e1, e2, e3⟩
  · rw [hre] at e; cases e
  · rw [hre, Option.some.injEq] at e2
    subst e2
    rw [e1] at c1
    simp only [e3] at c1
    by_cases h0 : ['0'] <+: f.post
    · exact h0
    · have hpd : ∀ c ∈ f.post, isDigit c = true := by
        intro c hc
        have : c ∈ lead ++ ds := by rw [hs]; simp [hc]
        rcases List.mem_append.1 this with h | h
        · exact hld c h
        · exact hd c h
      obtain ⟨p', hp'⟩ := Run.fits_steps (p := 0) (r := some [notZero re.re]) (u := lead) (s := ds) hld
        ⟨_, by simp, notZero_lang hl hpd h0 |>.imp fun w h => h.imp fun q h => ⟨by rw [hs, List.nil_append]; exact h.1, h.2⟩⟩
      exact absurd hp' (apart_sound h c1 hd hlen hg ht ha hne hx p')

/-- Soundness of `unprefixedCheck`. -/
theorem bare_of_check {m : Loader.Metadata} {md : Metadata} (h : Spec.EntryOf compile m md) (hc : unprefixedCheck m = true) {ds : Str}
    (hd : ∀ c ∈ ds, isDigit c = true) (hlen : ds.length ≤ 17) (hg : Spec.Accepts md.descriptors.general ds) {d : Descriptor}
    (ht : some d ∈ Spec.typed md.descriptors) (ha : Spec.Accepts d ds) (hne : d.possibleLength ≠ [])
    (hno : ∀ re, md.nationalPrefixForParsing = some re → ∀ w q, ds = w ++ q → ¬ Lang re.re 0 w q) :
    (∀ re, md.internationalPrefix = some re → ∀ m, re.find ([] ++ ds) = some m → m.pre = [] → ['0'] <+: m.post) ∧
    Spec.NationalPart md ds ds none := by
  simp only [unprefixedCheck, Bool.and_eq_true, List.all_eq_true, Option.mem_toList] at hc
  refine ⟨idd_of_check h hc.1 (fun _ h => nomatch h) hd hlen hg ht ha hne (by simp), ?_⟩
  refine nationalPart_keeps ⟨fun np hnp hpre => ?_, hno⟩
  obtain ⟨w, q, e, hl⟩ := lang_prefix hpre
  exact apart_sound h (hc.2 np (by rw [← h.nationalPrefix, hnp])) hd hlen hg ht ha hne (by simp) 0 ⟨_, by simp, w, q, e, hl⟩

omit [UnicodeTables] in
theorem writesPrefix_iff {f : Loader.Format} {g : Format} (h : Spec.FormatOf compile f g) :
    writesPrefix f = true ↔ ∃ r, g.nationalPrefix = some r ∧ 'N' ∈ r := by
  rw [writesPrefix, ← h.nationalPrefix]
  cases g.nationalPrefix with
  | none => simp
  | some r => simp

omit [UnicodeTables] in
/-- Soundness of `lateCheck`. -/
theorem late_sound {m : Loader.Metadata} {re : Re} {fs : List Loader.Format} {gs : List Format} (hfs : Spec.ListRel (Spec.FormatOf compile) fs gs)
    (hc : lateCheck m re fs = true) {b a : List Format} {f f0 : Format} (e : gs = b ++ f :: a) (h0 : f0 ∈ a)
    (hw : ∃ r, f0.nationalPrefix = some r ∧ 'N' ∈ r) (hf : ¬ ∃ r, f.nationalPrefix = some r ∧ 'N' ∈ r) :
    ∃ f', Spec.FormatOf compile f' f ∧ apart m (formatRuns f') (some [re]) = true := by
  induction hfs generalizing b with
  | nil => cases b <;> cases e
  | @cons x y fs gs hxy hrel ih =>
    rw [lateCheck, Bool.and_eq_true, Bool.or_eq_true, Bool.or_eq_true] at hc
    cases b with
    | nil =>
      obtain ⟨rfl, rfl⟩ := List.cons.inj e
      refine ⟨x, hxy, ?_⟩
      rcases hc.1 with h | h | h
      · exact absurd ((writesPrefix_iff hxy).1 h) hf
      · obtain ⟨z, hz, hr⟩ := listRel_mem hrel h0
        have := List.all_eq_true.1 h z hz
        rw [(writesPrefix_iff hr).2 hw] at this
        cases this
      · exact h
    | cons _ b => exact ih hc.2 (List.cons.inj e).2

/-- Soundness of `sparedCheck`: digits written without national prefix do not begin with a match of the parsing pattern. -/
theorem spared_sound {m m' : Loader.Metadata} {md md' : Metadata} (h : Spec.EntryOf compile m md) (h' : Spec.EntryOf compile m' md')
    (hc : sparedCheck m m' = true) {ds : Str}
    (hd : ∀ c ∈ ds, isDigit c = true) (hlen : ds.length ≤ 17) (hg : Spec.Accepts md.descriptors.general ds) {d : Descriptor}
    (ht : some d ∈ Spec.typed md.descriptors) (ha : Spec.Accepts d ds) (hne : d.possibleLength ≠ [])
    (hno : md'.nationalPrefix.isSome → ∀ f, Spec.Chosen md' ds .national none f → ∀ r, f.nationalPrefix = some r → 'N' ∉ r) :
    ∀ re, md.nationalPrefixForParsing = some re → ∀ w q, ds = w ++ q → ¬ Lang re.re 0 w q := by
  intro re hre w q e hl
  obtain ⟨g, hg1, hg2⟩ := h.general
  rcases compiled_pattern h.nationalPrefixForParsing with ⟨_, e'⟩ | ⟨p, re', e1, e2, e3⟩
  · rw [hre] at e'; cases e'
  rw [hre, Option.some.injEq] at e2
  subst e2
  simp only [sparedCheck, hg1, Option.bind_some, patternOf_eq hg2, e1, e3, Bool.and_eq_true] at hc
  obtain ⟨c0, c1, c2⟩ := hc
  rw [← h'.nationalPrefix] at c0
  obtain ⟨e, he1, he2⟩ := typed_of_entry h ht
  have hlm := ha.1.resolve_left hne
  rw [Digits.byteLen hd, Nat.mod_eq_of_lt (by omega), he2.possibleLength] at hlm
  have c2 := List.all_eq_true.1 c2 e he1
  simp only [patternOf_eq he2] at c2
  have fits : ∀ {r : Re}, (∃ w q, ds = w ++ q ∧ Lang r 0 w q) → Run.Fits 0 ds (some [r]) := fun {r} h => ⟨r, by simp, h⟩
  obtain ⟨r, hr, u, v, e4, hu⟩ := begun_sound hd (List.all_eq_true.1 c2 _ hlm) (fun r hr => by
    simp only [List.mem_cons, List.not_mem_nil, or_false] at hr
    rcases hr with rfl | rfl | rfl
    · exact ⟨0, fits hg.2⟩
    · exact ⟨0, fits ha.2⟩
    · exact ⟨0, fits ⟨w, q, by assumption, hl⟩⟩) 0
  obtain ⟨x, hx, rfl⟩ := List.mem_map.1 hr
  obtain ⟨hx, hin⟩ := List.mem_filter.1 hx
  obtain ⟨f, hf, hrung⟩ := List.mem_filterMap.1 hx
  obtain ⟨hf, hwr⟩ := List.mem_filter.1 hf
  obtain ⟨f0, hf0, hrel⟩ := listRel_mem_left h'.formats hf
  have happ := rung_applies hrel (x := x.1) (r := x.2) hrung hd hin e4 hu
  have hw0 := (writesPrefix_iff hrel).1 hwr
  have hfor : Spec.formatsFor md' .national = md'.formats := by simp [Spec.formatsFor]
  rcases chosen_or_none md' ds .national none with ⟨k, hk⟩ | hk
  · have hkn : ¬ ∃ r, k.nationalPrefix = some r ∧ 'N' ∈ r := fun ⟨r, h1, h2⟩ => hno c0 k hk r h1 h2
    rcases hk with hk | ⟨_, b, a, hk, hka, hkb⟩
    · cases hk
    · rw [hfor] at hk
      rw [hk] at hf0
      have hin : f0 ∈ a := by
        rcases List.mem_append.1 hf0 with h1 | h1
        · exact absurd happ (hkb f0 h1)
        · rcases List.mem_cons.1 h1 with rfl | h1
          · exact absurd hw0 hkn
          · exact h1
      obtain ⟨k', hk', hap⟩ := late_sound h'.formats c1 hk hin hw0 hkn
      exact apart_sound h hap hd hlen hg ht ha hne (formatRuns_fit hk' hka) 0 (fits ⟨w, q, by assumption, hl⟩)
  · exact hk.2 f0 (by rw [hfor]; exact hf0) happ

/-- Soundness of `leadCheck`. -/
theorem lead_of_check {m : Loader.Metadata} {md : Metadata} (h : Spec.EntryOf compile m md) {x : List Run} {lead : Str} (hc : leadCheck m x lead = true)
    (hgen : md.descriptors.general.possibleLength = []) {ds : Str}
    (hd : ∀ c ∈ ds, isDigit c = true) (hlen : ds.length ≤ 17) (hg : Spec.Accepts md.descriptors.general ds) {d : Descriptor}
    (ht : some d ∈ Spec.typed md.descriptors) (ha : Spec.Accepts d ds) (hne : d.possibleLength ≠ []) (hx : ∀ r ∈ x, ∃ p, r.Fits p ds) :
    (∀ re, md.internationalPrefix = some re → ∀ m, re.find (lead ++ ds) = some m → m.pre = [] → ['0'] <+: m.post) ∧
    ∃ car, Spec.NationalPart md (lead ++ ds) ds car ∧ (car = none ∨ md.nationalPrefixForParsing.isSome ∧ car = md.nationalPrefix) := by
  have key : ∀ {t : Run}, apart m x t = true → ∀ p, ¬ t.Fits p ds := fun hc p => apart_sound h hc hd hlen hg ht ha hne hx p
  have key1 : ∀ {r : Re}, apart m x (some [r]) = true → ∀ p w q, ds = w ++ q → ¬ Lang r p w q :=
    fun hc p w q e hl => key hc p ⟨_, by simp, w, q, e, hl⟩
  simp only [leadCheck, Bool.and_eq_true, List.all_eq_true, Option.mem_toList] at hc
  obtain ⟨c1, c2, c3⟩ := hc
  have hld : ∀ c ∈ lead, isDigit c = true := by
    intro c hc
    cases lead with
    | nil => cases hc
    | cons x l =>
      simp only [Bool.and_eq_true, List.all_eq_true] at c3
      exact c3.1.1 c hc
  have hkeep : Spec.dropPrefix md ds = ds := by
    unfold Spec.dropPrefix
    cases hp : md.nationalPrefix with
    | none => rfl
    | some np =>
      refine dropOnce_keep fun hpre => ?_
      obtain ⟨w, q, e, hl⟩ := lang_prefix hpre
      exact key1 (c2 np (by rw [← h.nationalPrefix, hp])) 0 w q e hl
  have htf : ∀ v, ¬ Spec.TooFew md.descriptors.general.possibleLength md.descriptors.general.possibleLocalLength v := by
    intro v; rw [hgen]; rintro ⟨_, _, h, _⟩; cases h
  refine ⟨idd_of_check h c1 hld hd hlen hg ht ha hne hx, ?_⟩
  · cases lead with
    | nil =>
      refine ⟨none, ?_, .inl rfl⟩
      refine nationalPart_keeps ⟨fun np hnp hpre => ?_, fun re hre w q e hl => ?_⟩
      · obtain ⟨w, q, e, hl⟩ := lang_prefix hpre
        exact key1 (c2 np (by rw [← h.nationalPrefix, hnp])) 0 w q e hl
      · rcases compiled_pattern h.nationalPrefixForParsing with ⟨_, e⟩ | ⟨p, re', e1, e2, e3⟩
        · rw [hre] at e; cases e
        · rw [hre, Option.some.injEq] at e2
          subst e2
          rw [e1] at c3
          simp only [e3] at c3
          exact key1 c3 0 w q e hl
    | cons x l =>
      simp only [Bool.and_eq_true, decide_eq_true_eq] at c3
      obtain ⟨⟨_, hnp⟩, hst⟩ := c3
      have hnp' : md.nationalPrefix = some (x :: l) := by rw [h.nationalPrefix, hnp]
      have hdrop : Spec.dropPrefix md (x :: l ++ ds) = ds := by
        unfold Spec.dropPrefix
        rw [hnp']
        exact dropOnce_append _ _
      rcases compiled_pattern h.nationalPrefixForParsing with ⟨_, e⟩ | ⟨p, re, e1, e2, e3⟩
      · refine ⟨none, ?_, .inl rfl⟩
        have := Spec.NationalPart.used (md := md) (.plain e (ds := x :: l ++ ds)) (htf _)
        rwa [hdrop, hkeep] at this
      · unfold strips at hst
        simp only [e1, e3] at hst
        split at hst
        case h_2 => cases hst
        case h_1 re' c hre' hxl =>
        rw [Option.some.injEq] at hre'
        subst hre'
        obtain ⟨rfl, rfl⟩ := List.cons.inj hxl
        simp only [Bool.and_eq_true, Bool.not_eq_true', List.all_eq_true, Bool.or_eq_true] at hst
        obtain ⟨⟨s1, s2⟩, s3⟩ := hst
        by_cases hm : ∃ f, re.find ([x] ++ ds) = some f ∧ f.pre = []
        · obtain ⟨f, hf, hpre⟩ := hm
          have f' := find_eq_some hf
          have hl := f'.lang
          have hs := f'.split
          rw [hpre] at hl hs
          have hx : isDigit x = true := hld x (by simp)
          have htext : f.text = [x] ∧ f.post = ds := by
            cases hw : f.text with
            | nil =>
              rw [hw] at hl hs
              have := lang_nullMid hl (by intro h0; rw [h0] at hs; simp at hs)
              rw [s1] at this; cases this
            | cons y w =>
              rw [hw] at hl hs
              simp only [List.nil_append, List.cons_append, List.cons.injEq] at hs
              obtain ⟨rfl, hs⟩ := hs
              obtain ⟨r, hr, hlr⟩ := lang_rests hx hl
              rcases s2 r hr with hr' | hr'
              · rw [Re.same_eq hr'] at hlr
                rw [lang_eps.1 hlr] at hs ⊢
                exact ⟨rfl, hs.symm⟩
              · by_cases hw0 : w = []
                · subst hw0
                  exact ⟨rfl, hs.symm⟩
                · exact absurd (nonempty_lang hlr hw0) (key1 hr' _ w f.post hs)
          have hnone : re.ngroups ≠ 0 → f.get re.ngroups = none := by
            intro hn
            cases hget : f.get re.ngroups with
            | none => rfl
            | some g =>
              have hu := find_using hf hn (by rw [hget]; rfl)
              have s3 := (s3.resolve_left fun h0 => hn (Nat.eq_of_beq_eq_true h0.1)).2
              rw [hpre] at hu
              exact absurd (Run.fits_step (p := 0) (s := ds) hx (r := some [re.re.using re.ngroups])
                ⟨_, by simp, f.text, f.post, by rw [htext.1, htext.2]; rfl, hu⟩) (key s3 _)
          have hrw : ∀ t, ¬ Spec.Rewrites md re f t := by
            rintro t ⟨h1, h2⟩
            by_cases hn : re.ngroups = 0
            · rcases s3 with s3 | s3
              · rw [h.nationalPrefixTransformRule] at h1
                rw [h1] at s3; cases s3.2
              · rw [hn] at s3; cases s3.1
            · rw [hnone hn] at h2; cases h2
          have := Spec.NationalPart.used (md := md) (.removed e2 hf hpre hrw) (htf _)
          rw [htext.2, hkeep] at this
          refine ⟨_, this, ?_⟩
          by_cases hn : re.ngroups = 0
          · right
            rw [e2, hnp', hn, Match.get, if_pos rfl, htext.1]
            exact ⟨rfl, rfl⟩
          · exact .inl (hnone hn)
        · refine ⟨none, ?_, .inl rfl⟩
          have := Spec.NationalPart.used (md := md) (.noMatch e2 (ds := [x] ++ ds) fun f h1 h2 => hm ⟨f, h1, h2⟩) (htf _)
          rw [hdrop] at this
          exact this

/-- C82: the national form of a number without carrier that a country's descriptions accept is read back with that country as reference
country, except for the calling codes listed, unless the digits written begin with the calling code. An extension of one to seven digits
is kept (not in Taiwan). The national prefix may be reported as carrier. -/
theorem C82_accepted (c : Id) (md : Metadata) (hmd : db.byId c.asRef = some md) (n : PhoneNumber) (hcode : md.countryCode = n.code.value)
    (hg : Spec.Accepts md.descriptors.general n.national.display)
    (ht : ∃ o ∈ Spec.typed md.descriptors, Spec.AcceptsOpt o n.national.display)
    (hz : n.national.value ≠ 0) (hcar : n.carrier = none)
    (hx : n.code.value ∉ [7, 54, 62, 66, 81, 82, 91, 241, 250, 359, 375, 507, 598, 974])
    (hext : ∀ e, n.extension = some e → (e ≠ [] ∧ e.length ≤ 7 ∧ ∀ c ∈ e, isDigit c = true) ∧ n.code.value ≠ 886)
    (s : Str) (hs : format n .national = .ok s) (hown : ¬ decStr n.code.value <+: s.filter isDigit) :
    ∃ car, parse (some c) s = .ok ⟨⟨n.code.value, .default⟩, n.national, n.extension, car⟩ ∧
      (car = none ∨ md.nationalPrefixForParsing.isSome ∧ car = md.nationalPrefix) := by
  have hd : Digits n.national.display := digits_display _
  have hent : Spec.Entry db md := .inl ⟨_, hmd⟩
  obtain ⟨m, hm, hmm⟩ := entry_of_territory from_builtin hent
  have he := metadata_rel _ _ hmm
  have hgen : md.descriptors.general.possibleLength = [] := (good_iff hent).2.2.2.2.2.2.2.1
  obtain ⟨o, ho, d, rfl, ha⟩ := ht
  have hmc : m.countryCode = some n.code.value := by rw [he.countryCode, hcode]
  have hlc := (validCheck_mem valid_check hm hmc).1
  obtain ⟨e, he1, he2⟩ := typed_of_entry he ho
  have hlen := List.all_eq_true.1 hlc e he1
  rw [Bool.and_eq_true, ← he2.possibleLength] at hlen
  have hne : d.possibleLength ≠ [] := by simpa using hlen.1
  have hmem := ha.1.resolve_left hne
  rw [hd.byteLen, Nat.mod_eq_of_lt (display_length _)] at hmem
  have hb := List.all_eq_true.1 hlen.2 _ hmem
  rw [Bool.and_eq_true] at hb
  have hb : 4 ≤ n.national.display.length ∧ n.national.display.length ≤ 17 := ⟨Nat.le_of_ble_eq_true hb.1, Nat.le_of_ble_eq_true hb.2⟩
  have other : ∀ md', Spec.MetadataFor db n md' → ∃ m' ∈ Data.territories, Spec.EntryOf compile m' md' ∧ m'.countryCode = some n.code.value := by
    rintro md' ⟨l, hl⟩
    exact territory_of_region hl (by simp)
  have hoth : ∀ md', Spec.MetadataFor db n md' → md'.id ∉ [str% "AR", str% "BY", str% "GA"] ∧
      md'.preferredExtensionPrefix ≠ some (str% "#") ∨ n.code.value = 886 ∧ md'.id ∉ [str% "AR", str% "BY", str% "GA"] := by
    intro md' hf
    obtain ⟨m', hm', he', hc'⟩ := other md' hf
    have hcc : md'.countryCode = n.code.value := by
      have := he'.countryCode
      rw [hc', Option.some.injEq] at this
      exact this.symm
    obtain ⟨o1, o2⟩ := otherCheck_mem other_check hm' he' (by rw [hcc]; exact hx)
    by_cases h886 : n.code.value = 886
    · exact .inr ⟨h886, o1⟩
    · exact .inl ⟨o1, fun h => h886 (hcc ▸ o2 h)⟩
  obtain ⟨md', lead, hmd', hlead, hpre, hread⟩ := national_lead n ⟨by omega, hb.2⟩ hz hcar (fun md' hf => by
      rcases hoth md' hf with h | h
      · exact h.1
      · exact h.2) s hs (fun e he => by
      obtain ⟨h1, h2⟩ := hext e he
      refine ⟨h1, space_before hs he fun md' hf => ?_⟩
      rcases hoth md' hf with h | h
      · exact h.2
      · exact absurd h.1 h2)
  have hchk : (∃ x, (∀ r ∈ x, ∃ p, r.Fits p n.national.display) ∧ leadCheck m x lead = true) ∨
      lead = [] ∧ unprefixedCheck m = true ∧ ∀ re, md.nationalPrefixForParsing = some re → ∀ w q, n.national.display = w ++ q → ¬ Lang re.re 0 w q := by
    obtain ⟨n1, n2⟩ := nationalCheck_mem national_check hm hmc hx
    rcases hlead with ⟨rfl, hno⟩ | ⟨hnp, f, hf, hr, happ⟩
    · rcases n1 with n1 | ⟨n1, n3⟩
      · exact .inl ⟨[], by simp, n1⟩
      · obtain ⟨m', hm', he', hc'⟩ := other md' hmd'
        exact .inr ⟨rfl, n1, spared_sound he he' (n3 m' hm' hc') hd hb.2 hg ho ha hne hno⟩
    · left
      obtain ⟨m', hm', he', hc'⟩ := other md' hmd'
      obtain ⟨f', hf', hff⟩ := listRel_mem he'.formats hf
      obtain ⟨x, hx, hchk⟩ := n2 m' hm' hc' lead (by rw [← he'.nationalPrefix, hnp]) f' hf' (by
        obtain ⟨r, hr, hN⟩ := hr
        rw [writesPrefix, ← hff.nationalPrefix, hr]
        exact List.any_eq_true.2 ⟨_, hN, rfl⟩)
      refine ⟨x, ?_, hchk⟩
      rcases hx with rfl | rfl
      · simp
      · exact formatRuns_fit hff happ
  obtain ⟨l1, car, l2, l3⟩ :
      (∀ re, md.internationalPrefix = some re → ∀ m, re.find (lead ++ n.national.display) = some m → m.pre = [] → ['0'] <+: m.post) ∧
      ∃ car, Spec.NationalPart md (lead ++ n.national.display) n.national.display car ∧
        (car = none ∨ md.nationalPrefixForParsing.isSome ∧ car = md.nationalPrefix) := by
    rcases hchk with ⟨x, hfit, hchk⟩ | ⟨rfl, hchk, hno⟩
    · exact lead_of_check he hchk hgen hd hb.2 hg ho ha hne hfit
    · obtain ⟨k1, k2⟩ := bare_of_check he hchk hd hb.2 hg ho ha hne hno
      exact ⟨k1, none, k2, .inl rfl⟩
  refine ⟨car, hread c md hmd hcode car (by rw [List.length_append]; omega) ?_ ?_ l2, l3⟩
  · rintro rest ⟨md₂, re, f, k1, k2, k3, k4, k5⟩
    rw [hmd, Option.some.injEq] at k1
    subst k1
    rw [← k5]
    exact l1 re k2 f k3 k4
  · rintro ⟨h1, _⟩
    rw [hcode] at h1
    exact hown (h1.trans hpre)

/-- The country of a valid number accepts it. (For a calling code with several countries the national number must not begin with
zero: the country is found without leading zeros, validity with them.) -/
theorem valid_country {ε : Type} (n : PhoneNumber) (hv : isValid (ε := ε) n = .ok true) (c : Id) (hc : countryId n = .ok (some c))
    (h0 : n.national.zeros = 0 ∨ ∀ l, db.byCode n.code.value = some l → l.length = 1) :
    ∃ md, db.byId c.asRef = some md ∧ md.countryCode = n.code.value ∧ Spec.Accepts md.descriptors.general n.national.display ∧
      ∃ o ∈ Spec.typed md.descriptors, Spec.AcceptsOpt o n.national.display := by
  obtain ⟨md, hr, hg, ht⟩ := (C63_valid ε compile Data.territories db from_builtin ids_nodup shared n).1 hv
  obtain ⟨md₂, hm₂, hid₂⟩ := ((C54_queries_no_panic ε compile Data.territories db from_builtin shared n).2.2.2.2.1 c).1 hc
  have hr₂ := (C63_metadata ParseErr compile Data.territories db from_builtin ids_nodup shared n _).1 hm₂
  obtain ⟨l, hl, hmem⟩ := region_mem hr
  have e : md = md₂ := by
    rcases h0 with h0 | h0
    · have hdisp : n.national.display = decStr n.national.value.toNat := by rw [NationalNumber.display, h0]; rfl
      rw [← hdisp] at hr₂
      exact Option.some.inj (hr.unique hr₂)
    · obtain ⟨l', hl', hmem'⟩ := region_mem hr₂
      rw [hl, Option.some.injEq] at hl'
      subst hl'
      obtain ⟨x, rfl⟩ := List.length_eq_one_iff.1 (h0 l hl)
      rw [List.mem_singleton.1 hmem, List.mem_singleton.1 hmem']
  subst e
  have hby := listed_by_id from_builtin ids_nodup hl hmem (by rw [hid₂]; exact asRef_ne_world c)
  rw [hid₂] at hby
  exact ⟨md, hby, ((from_consistent from_builtin).2.1 _ l hl).2 md hmem, hg, ht⟩

/-- C82: so is the national form of a valid number, with the country of the number as reference country. (For a calling code with several
countries the national number must not begin with zero: the country is found without leading zeros, validity with them.) -/
theorem C82_valid {ε : Type} (n : PhoneNumber) (hv : isValid (ε := ε) n = .ok true) (c : Id) (hc : countryId n = .ok (some c))
    (h0 : n.national.zeros = 0 ∨ ∀ l, db.byCode n.code.value = some l → l.length = 1) (hz : n.national.value ≠ 0)
    (hcar : n.carrier = none)
    (hx : n.code.value ∉ [7, 54, 62, 66, 81, 82, 91, 241, 250, 359, 375, 507, 598, 974])
    (hext : ∀ e, n.extension = some e → (e ≠ [] ∧ e.length ≤ 7 ∧ ∀ c ∈ e, isDigit c = true) ∧ n.code.value ≠ 886) :
    ∃ s, format n .national = .ok s ∧ (¬ decStr n.code.value <+: s.filter isDigit →
      ∃ car, parse (some c) s = .ok ⟨⟨n.code.value, .default⟩, n.national, n.extension, car⟩) := by
  obtain ⟨s, hs⟩ := valid_formats hv .national
  refine ⟨s, hs, fun hown => ?_⟩
  obtain ⟨md, hby, hcode, hg, ht⟩ := valid_country n hv c hc h0
  obtain ⟨car, hp, _⟩ := C82_accepted c md hby n hcode hg ht hz hcar hx hext s hs hown
  exact ⟨car, hp⟩

/-- What the territories of a calling code alone say about a number. -/
def nationally (ms : List Loader.Metadata) (p : PhoneNumber) : Bool × Outcome ParseErr Bool × Outcome ParseErr (Option Id) × Outcome Formatter.FmtErr Str :=
  match Database.from compile ms with
  | .ok d => (d.sharedCheck, isValidWith d p, p.countryId d, Formatter.fmt d p .national)
  | _ => (false, .ok false, .ok none, .err .error)

theorem nationally_builtin (p : PhoneNumber) (i : Id) (s : Str)
    (h : nationally (Data.territories.filter (·.countryCode == some p.code.value)) p = (true, .ok true, .ok (some i), .ok s)) :
    isValid (ε := ParseErr) p = .ok true ∧ countryId p = .ok (some i) ∧ format p .national = .ok s := by
  revert h
  generalize hms : Data.territories.filter (·.countryCode == some p.code.value) = ms
  intro h
  unfold nationally at h
  split at h
  · rename_i d hd'
    simp only [Prod.mk.injEq] at h
    obtain ⟨h1, h2, h3, h4⟩ := h
    obtain ⟨f1, f2⟩ := filtered Data.territories ids_nodup p.code.value
    rw [hms] at f1 f2
    obtain ⟨k1, k2, k3⟩ := C76_builtin_number ms d hd' f2 (shared_of_check h1) p (by rw [hms]; exact f1)
    exact ⟨by rw [k1, h2], by rw [k2, h3], by rw [k3, h4]⟩
  · cases h

/-- A German number, one of Jersey and one of the United States, the first with an extension; their national forms. -/
theorem nationally_examples :
    nationally (Data.territories.filter (·.countryCode == some 49)) ⟨⟨49, .plus⟩, ⟨30123456⟩, some (str% "78"), none⟩ =
      (true, .ok true, .ok (some .DE), .ok (str% "030 123456 ext. 78")) ∧
    nationally (Data.territories.filter (·.countryCode == some 44)) ⟨⟨44, .plus⟩, ⟨1534456789⟩, none, none⟩ =
      (true, .ok true, .ok (some .JE), .ok (str% "01534 456789")) ∧
    nationally (Data.territories.filter (·.countryCode == some 1)) ⟨⟨1, .plus⟩, ⟨6502530000⟩, none, none⟩ =
      (true, .ok true, .ok (some .US), .ok (str% "(650) 253-0000")) :=
  ⟨by kernel_rfl, by kernel_rfl, by kernel_rfl⟩

/-- They meet the hypotheses of `C82_valid`. -/
example : (∃ car, parse (some .DE) (str% "030 123456 ext. 78") = .ok ⟨⟨49, .default⟩, ⟨30123456⟩, some (str% "78"), car⟩) ∧
    (∃ car, parse (some .JE) (str% "01534 456789") = .ok ⟨⟨44, .default⟩, ⟨1534456789⟩, none, car⟩) ∧
    ∃ car, parse (some .US) (str% "(650) 253-0000") = .ok ⟨⟨1, .default⟩, ⟨6502530000⟩, none, car⟩ := by
  obtain ⟨h1, h2, h3⟩ := nationally_examples
  have key : ∀ (p : PhoneNumber) (i : Id) (s : Str),
      nationally (Data.territories.filter (·.countryCode == some p.code.value)) p = (true, .ok true, .ok (some i), .ok s) →
      (Nat.beq p.national.zeros.toNat 0 && !Nat.beq p.national.value.toNat 0) = true → p.carrier = none →
      p.code.value ∉ [7, 54, 62, 66, 81, 82, 91, 241, 250, 359, 375, 507, 598, 974] →
      (∀ e, p.extension = some e → (e ≠ [] ∧ e.length ≤ 7 ∧ ∀ c ∈ e, isDigit c = true) ∧ p.code.value ≠ 886) →
      ¬ decStr p.code.value <+: s.filter isDigit → ∃ car, parse (some i) s = .ok ⟨⟨p.code.value, .default⟩, p.national, p.extension, car⟩ := by
    intro p i s h ab c d e f
    rw [Bool.and_eq_true, Bool.not_eq_true'] at ab
    have a : p.national.zeros = 0 := by
      exact UInt8.toNat_inj.1 (Nat.eq_of_beq_eq_true ab.1)
    have b : p.national.value ≠ 0 := by
      intro h
      rw [h] at ab
      exact absurd ab.2 (by decide)
    obtain ⟨k1, k2, k3⟩ := nationally_builtin p i s h
    obtain ⟨s', hs', hp⟩ := C82_valid p k1 i k2 (.inl a) b c d e
    rw [k3, Outcome.ok.injEq] at hs'
    subst hs'
    exact hp f
  refine ⟨key ⟨⟨49, .plus⟩, ⟨30123456⟩, some (str% "78"), none⟩ _ _ h1 (by kernel_rfl) rfl (by decide) (fun e he => ?_) (by decide),
    key ⟨⟨44, .plus⟩, ⟨1534456789⟩, none, none⟩ _ _ h2 (by kernel_rfl) rfl (by decide) (fun e he => by cases he) (by decide),
    key ⟨⟨1, .plus⟩, ⟨6502530000⟩, none, none⟩ _ _ h3 (by kernel_rfl) rfl (by decide) (fun e he => by cases he) (by decide)⟩
  cases he
  exact ⟨⟨by decide, by decide, by decide⟩, by decide⟩

end Builtin
end Phone
