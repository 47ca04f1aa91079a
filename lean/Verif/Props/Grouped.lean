import Verif.Props.ValidFull
import Verif.Props.ValidNational
import Verif.Props.FormatExact
/-! # C90: which valid numbers are written in groups -/

namespace Phone

/-- The number is written with the format: it is the first applicable one of those its calling code has for the mode, and its pattern
matches all the digits. -/
def Spec.WrittenWith [UnicodeTables] (db : Database) (n : PhoneNumber) (mode : Formatter.Mode) (f : Format) : Prop :=
  ∃ md, Spec.MetadataFor db n md ∧ Spec.FirstApplicable (Spec.formatsFor md mode) n.national.display f ∧
    ∃ m, f.pattern.find n.national.display = some m ∧ m.text = n.national.display

namespace Builtin
open Formatter
variable [UnicodeTables]

/-- The calling codes with valid numbers for which there is no format at all. -/
def plainCodes : List Nat :=
  [31, 46, 47, 49, 53, 54, 55, 56, 57, 60, 61, 62, 63, 65, 66, 81, 82, 84, 86, 90, 95, 213, 230, 231, 241, 243, 247, 248, 250, 252, 260,
    263, 290, 350, 352, 353, 354, 358, 359, 372, 376, 377, 383, 385, 423, 500, 507, 508, 595, 597, 598, 677, 678, 683, 685, 686, 688, 690,
    850, 870, 880, 881, 882, 883, 961, 964, 971, 972, 974, 976]

/-- The calling codes with valid numbers for which there is no format but in national form. -/
def plainAbroad : List Nat := [91, 421, 504, 977]

/-- The territories whose formats may be used for the calling code: the main ones, or all if none is. -/
def headsOf (ms : List Loader.Metadata) (c : Nat) : List Loader.Metadata :=
  let l := ms.filter (·.countryCode == some c)
  if l.any (·.mainCountryForCode) then l.filter (·.mainCountryForCode) else l

/-- Every number of a listed length that begins with a match of the general pattern and of a type has an applicable format. -/
def coverCheck (m : Loader.Metadata) (fs : List Loader.Format) : Bool :=
  match m.general.bind patternOf with
  | none => false
  | some g =>
    let ps := (typedOf m).map fun d => (d.possibleLength, patternOf d)
    let tab := fs.filterMap rung
    (distinct Nat.beq (ps.flatMap (·.1))).all fun n =>
      let l := (tab.filter fun e => within n e.1).map (·.2)
      let rs := (ps.filter fun d => d.1.any (Nat.beq n)).filterMap (·.2)
      begun n ([some rs], l) || begun n ([some [g], some rs], l)

/-- Formats without leading digits match all of every number of a listed length. -/
def openCheck (m : Loader.Metadata) (fs : List Loader.Format) : Bool :=
  fs.all fun f => !f.leadingDigits.isEmpty || match rung f with
    | some e => (typedOf m).all fun d => d.possibleLength.all fun n => within n e.1
    | none => false

def sameText (a b : Str) : Bool := sameList (fun c d => Nat.beq c.toNat d.toNat) a b

/-- The formats have the same pattern and leading digits. -/
def sameFormat (f g : Loader.Format) : Bool :=
  sameText (f.pattern.getD []) (g.pattern.getD []) && sameList sameText f.leadingDigits g.leadingDigits

/-- The check of a territory: national formats unless the code is in the first list, the others unless it is in one of them. -/
def groupedCheck (ms : List Loader.Metadata) (m : Loader.Metadata) : Bool :=
  match m.countryCode with
  | none => true
  | some c => plainCodes.any (Nat.beq c) || (headsOf ms c).all fun h =>
      openCheck m h.formats && (openCheck m h.internationalFormats &&
      if plainAbroad.any (Nat.beq c) || h.internationalFormats.isEmpty then coverCheck m h.formats
      else coverCheck m h.internationalFormats && h.internationalFormats.all fun f => h.formats.any (sameFormat f))

omit [UnicodeTables] in
theorem grouped_check1 : ((Data.territories.drop 0).take 50).all (groupedCheck Data.territories) = true := by kernel_rfl
omit [UnicodeTables] in
theorem grouped_check2 : ((Data.territories.drop 50).take 50).all (groupedCheck Data.territories) = true := by kernel_rfl
omit [UnicodeTables] in
theorem grouped_check3 : ((Data.territories.drop 100).take 50).all (groupedCheck Data.territories) = true := by kernel_rfl
omit [UnicodeTables] in
theorem grouped_check4 : ((Data.territories.drop 150).take 50).all (groupedCheck Data.territories) = true := by kernel_rfl
omit [UnicodeTables] in
theorem grouped_check5 : (Data.territories.drop 200).all (groupedCheck Data.territories) = true := by kernel_rfl

omit [UnicodeTables] in
theorem grouped_check : Data.territories.all (groupedCheck Data.territories) = true :=
  in_parts grouped_check1 grouped_check2 grouped_check3 grouped_check4 grouped_check5

omit [UnicodeTables] in
theorem listRel_nil {α β : Type} {R : α → β → Prop} {l : List α} {m : List β} (h : Spec.ListRel R l m) : l = [] ↔ m = [] := by
  cases h <;> simp

omit [UnicodeTables] in
/-- The first entry of a calling code is one of `headsOf`. -/
theorem head_listed {compile : Str → Option Regex} {ms : List Loader.Metadata} {db : Database}
    (hdb : Database.from compile ms = .ok db) {c : Nat} {md : Metadata} {l : List Metadata} (hl : db.byCode c = some (md :: l)) :
    ∃ m ∈ headsOf ms c, Spec.EntryOf compile m md := by
  obtain ⟨_, _, _, hex, _, _⟩ := C27_indexes _ _ hdb
  obtain ⟨mds, hrel, _, hlist⟩ := C60_entries _ _ hdb
  have h1 := hlist c ((hex c).1 (by rw [hl]; rfl))
  rw [hl, Option.some.injEq, Spec.listed] at h1
  have hmem : md ∈ md :: l := by simp
  unfold headsOf
  simp only
  cases hf : ((mds.filter (·.countryCode == c)).filter (·.mainCountryForCode)).reverse with
  | nil =>
    rw [h1, hf, List.nil_append] at hmem
    obtain ⟨h2, _⟩ := List.mem_filter.1 hmem
    obtain ⟨h2, h3⟩ := List.mem_filter.1 h2
    obtain ⟨m, hm, he⟩ := listRel_mem hrel h2
    have hc : m.countryCode = some c := by rw [he.countryCode]; simpa using h3
    refine ⟨m, ?_, he⟩
    rw [if_neg]
    · exact List.mem_filter.2 ⟨hm, by simp [hc]⟩
    · intro ha
      obtain ⟨m', hm', hmain⟩ := List.any_eq_true.1 ha
      obtain ⟨hm', hc'⟩ := List.mem_filter.1 hm'
      obtain ⟨b, hb, he'⟩ := listRel_mem_left hrel hm'
      have : b ∈ ((mds.filter (·.countryCode == c)).filter (·.mainCountryForCode)).reverse := by
        have e := he'.countryCode
        rw [beq_iff_eq] at hc'
        rw [hc', Option.some.injEq] at e
        exact List.mem_reverse.2 (List.mem_filter.2 ⟨List.mem_filter.2 ⟨hb, by simp [e]⟩, by rw [he'.mainCountryForCode]; exact hmain⟩)
      rw [hf] at this; cases this
  | cons x t =>
    rw [hf, List.cons_append, List.cons.injEq] at h1
    have : md ∈ ((mds.filter (·.countryCode == c)).filter (·.mainCountryForCode)).reverse := by rw [hf, h1.1]; simp
    obtain ⟨h2, hmain⟩ := List.mem_filter.1 (List.mem_reverse.1 this)
    obtain ⟨h2, h3⟩ := List.mem_filter.1 h2
    obtain ⟨m, hm, he⟩ := listRel_mem hrel h2
    have hc : m.countryCode = some c := by rw [he.countryCode]; simpa using h3
    have hin : m ∈ ms.filter (·.countryCode == some c) := List.mem_filter.2 ⟨hm, by simp [hc]⟩
    have hmm : m.mainCountryForCode = true := by rw [← he.mainCountryForCode]; exact hmain
    refine ⟨m, ?_, he⟩
    rw [if_pos (List.any_eq_true.2 ⟨m, hin, hmm⟩)]
    exact List.mem_filter.2 ⟨hin, hmm⟩

/-- Soundness of `coverCheck`. -/
theorem cover_sound {m : Loader.Metadata} {md : Metadata} (h : Spec.EntryOf compile m md) {fs : List Loader.Format} {gs : List Format}
    (hfs : Spec.ListRel (Spec.FormatOf compile) fs gs) (hc : coverCheck m fs = true) {ds : Str}
    (hd : ∀ c ∈ ds, isDigit c = true) (hlen : ds.length < 65536) (hg : Spec.Accepts md.descriptors.general ds) {d : Descriptor}
    (ht : some d ∈ Spec.typed md.descriptors) (ha : Spec.Accepts d ds) (hne : d.possibleLength ≠ []) : ∃ f ∈ gs, Spec.Applies f ds := by
  obtain ⟨g, hg1, hg2⟩ := h.general
  obtain ⟨e, he1, he2⟩ := typed_of_entry h ht
  simp only [coverCheck, hg1, Option.bind_some, patternOf_eq hg2] at hc
  have hl := ha.1.resolve_left hne
  rw [Digits.byteLen hd, Nat.mod_eq_of_lt hlen, he2.possibleLength] at hl
  have := List.all_eq_true.1 hc ds.length (mem_distinct (fun _ _ => Nat.eq_of_beq_eq_true)
    (List.mem_flatMap.2 ⟨(e.possibleLength, patternOf e), List.mem_map.2 ⟨e, he1, rfl⟩, hl⟩))
  have hbeg : ∃ r ∈ ((fs.filterMap rung).filter fun e => within ds.length e.1).map (·.2), ∃ w q, ds = w ++ q ∧ Lang r 0 w q := by
    have hin : d.nationalNumber.re ∈ (((typedOf m).map fun d => (d.possibleLength, patternOf d)).filter fun d =>
        d.1.any (Nat.beq ds.length)).filterMap (·.2) :=
      List.mem_filterMap.2 ⟨_, List.mem_filter.2 ⟨List.mem_map.2 ⟨e, he1, rfl⟩, List.any_eq_true.2 ⟨_, hl, by simp⟩⟩, patternOf_eq he2⟩
    rw [Bool.or_eq_true] at this
    rcases this with h1 | h1
    · refine begun_sound hd h1 (fun r hr => ?_) 0
      rw [List.mem_singleton.1 hr]
      exact ⟨0, _, hin, ha.2⟩
    · refine begun_sound hd h1 (fun r hr => ?_) 0
      rcases List.mem_cons.1 hr with rfl | hr
      · exact ⟨0, _, List.mem_singleton.2 rfl, hg.2⟩
      · rw [List.mem_singleton.1 hr]
        exact ⟨0, _, hin, ha.2⟩
  obtain ⟨r, hr, w, q, e3, hw⟩ := hbeg
  obtain ⟨x, hx, rfl⟩ := List.mem_map.1 hr
  obtain ⟨hx, hin⟩ := List.mem_filter.1 hx
  obtain ⟨f, hf, hrung⟩ := List.mem_filterMap.1 hx
  obtain ⟨f', hf', hrel⟩ := listRel_mem_left hfs hf
  exact ⟨f', hf', rung_applies hrel (x := x.1) (r := x.2) hrung hd hin e3 hw⟩

/-- Soundness of `openCheck`. -/
theorem open_sound {m : Loader.Metadata} {md : Metadata} (h : Spec.EntryOf compile m md) {fs : List Loader.Format} {gs : List Format}
    (hfs : Spec.ListRel (Spec.FormatOf compile) fs gs) (hc : openCheck m fs = true) {ds : Str}
    (hd : ∀ c ∈ ds, isDigit c = true) (hlen : ds.length < 65536) {d : Descriptor}
    (ht : some d ∈ Spec.typed md.descriptors) (ha : Spec.Accepts d ds) (hne : d.possibleLength ≠ []) :
    ∀ f ∈ gs, Spec.Applies f ds → ∃ m, f.pattern.find ds = some m ∧ m.text = ds := by
  obtain ⟨e, he1, he2⟩ := typed_of_entry h ht
  have hl := ha.1.resolve_left hne
  rw [Digits.byteLen hd, Nat.mod_eq_of_lt hlen, he2.possibleLength] at hl
  intro f' hf' happ
  rcases happ with happ | happ
  · obtain ⟨f, hf, hrel⟩ := listRel_mem hfs hf'
    have := List.all_eq_true.1 hc f hf
    rw [Bool.or_eq_true] at this
    rcases this with h1 | h1
    · rw [(listRel_nil hrel.leadingDigits).2 happ] at h1
      cases h1
    · split at h1
      · rename_i x hx
        have h1 := List.all_eq_true.1 (List.all_eq_true.1 h1 e he1) _ hl
        rw [within_iff] at h1
        exact ladder_whole (rung_sound hrel (x := x.1) (r := x.2) hx).1 hd h1.1 h1.2
      · cases h1
  · exact happ.2

omit [UnicodeTables] in
theorem sameText_eq (a b : Str) (h : sameText a b = true) : a = b :=
  sameList_eq (fun _ _ h => Char.toNat_inj.1 (Nat.eq_of_beq_eq_true h)) h

/-- Formats with the same pattern and leading digits apply to the same numbers. -/
theorem sameFormat_sound {f g : Loader.Format} {f' g' : Format} (hf : Spec.FormatOf compile f f') (hg : Spec.FormatOf compile g g')
    (h : sameFormat f g = true) {v : Str} (ha : Spec.Applies f' v) : Spec.Applies g' v := by
  rw [sameFormat, Bool.and_eq_true] at h
  obtain ⟨s, h1, h2⟩ := hf.pattern
  obtain ⟨t, h3, h4⟩ := hg.pattern
  have e1 := sameText_eq _ _ h.1
  rw [h1, h3] at e1
  simp only [Option.getD_some] at e1
  subst e1
  rw [h2, Option.some.injEq] at h4
  have e2 := sameList_eq sameText_eq h.2
  have e3 : f'.leadingDigits.getLast? = g'.leadingDigits.getLast? := by
    rcases listRel_last hf.leadingDigits with ⟨a1, a2⟩ | ⟨a, b, a1, a2, hab⟩ <;>
    rcases listRel_last hg.leadingDigits with ⟨b1, b2⟩ | ⟨a', b', b1, b2, hab'⟩
    · rw [a2, b2]
    · rw [e2, b1] at a1; cases a1
    · rw [e2, b1] at a1; cases a1
    · rw [e2, b1, Option.some.injEq] at a1
      subst a1
      have : compile a' = some b := hab
      rw [show compile a' = some b' from hab', Option.some.injEq] at this
      rw [a2, b2, this]
  unfold Spec.Applies at *
  rw [← h4, ← e3]
  refine ha.imp (fun h0 => ?_) id
  rw [h0] at e3
  simpa using e3.symm

/-- What a valid number fulfils, in the words of the checks. -/
theorem valid_typed {ε : Type} {n : PhoneNumber} (hv : isValid (ε := ε) n = .ok true) :
    ∃ m ∈ Data.territories, ∃ md, Spec.EntryOf compile m md ∧ m.countryCode = some n.code.value ∧
      Spec.Accepts md.descriptors.general n.national.display ∧ ∃ d, some d ∈ Spec.typed md.descriptors ∧
        Spec.Accepts d n.national.display ∧ d.possibleLength ≠ [] := by
  rw [isValid, C63_valid ε compile Data.territories db from_builtin ids_nodup shared n] at hv
  obtain ⟨md, hr, hg, _, ho, d, rfl, ha⟩ := hv
  obtain ⟨l, hl, hmd⟩ := region_mem hr
  obtain ⟨m, hm, he, hmc⟩ := territory_of_region hl hmd
  obtain ⟨e, he1, he2⟩ := typed_of_entry he ho
  have hlen := List.all_eq_true.1 (validCheck_mem valid_check hm hmc).1 e he1
  rw [Bool.and_eq_true, ← he2.possibleLength] at hlen
  exact ⟨m, hm, md, he, hmc, hg, d, ho, ha, by simpa using hlen.1⟩

omit [UnicodeTables] in
theorem not_any_beq {l : List Nat} {c : Nat} (h : c ∉ l) : l.any (Nat.beq c) = false := by
  rw [List.any_eq_false]
  intro x hx e
  exact h (Nat.eq_of_beq_eq_true e ▸ hx)

omit [UnicodeTables] in
theorem grouped_mem {ms : List Loader.Metadata} (h : ms.all (groupedCheck ms) = true) {m : Loader.Metadata} (hm : m ∈ ms) {c : Nat}
    (hc : m.countryCode = some c) (hx : c ∉ plainCodes) {k : Loader.Metadata} (hk : k ∈ headsOf ms c) :
    openCheck m k.formats = true ∧ openCheck m k.internationalFormats = true ∧
    ((coverCheck m k.formats = true ∧ (c ∉ plainAbroad → k.internationalFormats = [])) ∨
      (coverCheck m k.internationalFormats = true ∧ ∀ f ∈ k.internationalFormats, ∃ g ∈ k.formats, sameFormat f g = true)) := by
  have := List.all_eq_true.1 h m hm
  rw [groupedCheck, hc] at this
  simp only [not_any_beq hx, Bool.false_or] at this
  have := List.all_eq_true.1 this k hk
  rw [Bool.and_eq_true, Bool.and_eq_true] at this
  refine ⟨this.1, this.2.1, ?_⟩
  have h2 := this.2.2
  split at h2
  · rename_i h3
    refine .inl ⟨h2, fun ha => ?_⟩
    rw [not_any_beq ha, Bool.false_or] at h3
    exact List.isEmpty_iff.1 h3
  · rw [Bool.and_eq_true] at h2
    exact .inr ⟨h2.1, fun f hf => List.any_eq_true.1 (List.all_eq_true.1 h2.2 f hf)⟩

theorem written_of_applies {n : PhoneNumber} {mode : Mode} {md : Metadata} (hmd : Spec.MetadataFor db n md)
    (h : (∃ f ∈ Spec.formatsFor md mode, Spec.Applies f n.national.display) ∧
      ∀ f ∈ Spec.formatsFor md mode, Spec.Applies f n.national.display → ∃ m, f.pattern.find n.national.display = some m ∧ m.text = n.national.display) :
    ∃ f, Spec.WrittenWith db n mode f := by
  rcases chosen_or_none md n.national.display mode none with ⟨f, hf | ⟨_, hf⟩⟩ | hno
  · cases hf
  · refine ⟨f, md, hmd, hf, ?_⟩
    obtain ⟨b, a, e, happ, _⟩ := hf
    exact h.2 f (by rw [e]; simp) happ
  · obtain ⟨f, hf, ha⟩ := h.1
    exact absurd ha (hno.2 f hf)

theorem written {ε : Type} (n : PhoneNumber) (hv : isValid (ε := ε) n = .ok true) (mode : Mode) (hc : n.code.value ∉ plainCodes)
    (ha : mode ≠ .national → n.code.value ∉ plainAbroad) : ∃ f, Spec.WrittenWith db n mode f := by
  have hd : Digits n.national.display := digits_display _
  have hl := display_length n.national
  have hfrom := from_builtin
  have hgr := grouped_check
  obtain ⟨_, hk, _⟩ := valid_facts n hv
  obtain ⟨m, hm, md, he, hmc, hg, d, ho, hacc, hne⟩ := valid_typed hv
  generalize Data.territories = ms at *
  obtain ⟨l, hlist⟩ := Option.isSome_iff_exists.1 hk
  obtain ⟨hne', _⟩ := (from_consistent hfrom).2.1 _ l hlist
  match l, hne', hlist with
  | md' :: l, _, hlist =>
    obtain ⟨k, hk, hek⟩ := head_listed hfrom hlist
    obtain ⟨c1, c2, c3⟩ := grouped_mem hgr hm hmc hc hk
    refine written_of_applies ⟨l, hlist⟩ ?_
    unfold Spec.formatsFor
    split
    · refine ⟨?_, open_sound he hek.formats c1 hd hl ho hacc hne⟩
      rcases c3 with ⟨c3, _⟩ | ⟨c3, c4⟩
      · exact cover_sound he hek.formats c3 hd hl hg ho hacc hne
      · obtain ⟨f, hf, happ⟩ := cover_sound he hek.internationalFormats c3 hd hl hg ho hacc hne
        obtain ⟨f0, hf0, hrel⟩ := listRel_mem hek.internationalFormats hf
        obtain ⟨g0, hg0, hs⟩ := c4 f0 hf0
        obtain ⟨g', hg', hrel'⟩ := listRel_mem_left hek.formats hg0
        exact ⟨g', hg', sameFormat_sound hrel hrel' hs happ⟩
    · rename_i hx
      have hx1 : md'.internationalFormats ≠ [] := fun h => hx (.inl h)
      have hx2 : mode ≠ .national := fun h => hx (.inr h)
      refine ⟨?_, open_sound he hek.internationalFormats c2 hd hl ho hacc hne⟩
      rcases c3 with ⟨_, c3⟩ | ⟨c3, _⟩
      · exact absurd ((listRel_nil hek.internationalFormats).1 (c3 (ha hx2))) hx1
      · exact cover_sound he hek.internationalFormats c3 hd hl hg ho hacc hne

/-- C90: outside the listed calling codes every valid number is written in national form with a format of its calling code whose
pattern matches all its digits. -/
theorem C90_national {ε : Type} (n : PhoneNumber) (hv : isValid (ε := ε) n = .ok true)
    (hc : n.code.value ∉ [31, 46, 47, 49, 53, 54, 55, 56, 57, 60, 61, 62, 63, 65, 66, 81, 82, 84, 86, 90, 95, 213, 230, 231, 241, 243, 247, 248, 250, 252, 260,
    263, 290, 350, 352, 353, 354, 358, 359, 372, 376, 377, 383, 385, 423, 500, 507, 508, 595, 597, 598, 677, 678, 683, 685, 686, 688, 690,
    850, 870, 880, 881, 882, 883, 961, 964, 971, 972, 974, 976]) : ∃ f, Spec.WrittenWith db n .national f :=
  written n hv .national hc fun h => absurd rfl h

/-- C90: so it is in international and RFC 3966 form, if besides its calling code is none of four more. -/
theorem C90_international {ε : Type} (n : PhoneNumber) (hv : isValid (ε := ε) n = .ok true) (mode : Mode)
    (hc : n.code.value ∉ [31, 46, 47, 49, 53, 54, 55, 56, 57, 60, 61, 62, 63, 65, 66, 81, 82, 84, 86, 90, 95, 213, 230, 231, 241, 243, 247, 248, 250, 252, 260,
    263, 290, 350, 352, 353, 354, 358, 359, 372, 376, 377, 383, 385, 423, 500, 507, 508, 595, 597, 598, 677, 678, 683, 685, 686, 688, 690,
    850, 870, 880, 881, 882, 883, 961, 964, 971, 972, 974, 976])
    (ha : n.code.value ∉ [91, 421, 504, 977]) : ∃ f, Spec.WrittenWith db n mode f :=
  written n hv mode hc fun _ => ha

/-! Numbers without format. -/

/-- The check of validity of one number. -/
def validOk (ms : List Loader.Metadata) (w : Nat × Str) : Bool :=
  match Database.from compile (ms.filter (·.countryCode == some w.1)) with
  | .ok d => d.sharedCheck && ((match NationalNumber.fromStr w.2 with
      | .ok n => decide (n.display = w.2)
      | _ => false) &&
    (match sourceFor (ε := Unit) d w.1 w.2 with
      | .ok src => (match src.bind (sourceMeta d) with
        | some md => Phone.numberType md w.2 != .unknown
        | none => false)
      | _ => false))
  | _ => false

/-- The check that a format does not apply. -/
def unfit (v : Str) (f : Loader.Format) : Bool :=
  match f.pattern.bind compile, f.leadingDigits.getLast?.bind compile with
  | some p, some l => !(leadingMatches v l && patternMatches v p)
  | _, _ => false

/-- The check that no format of the calling code applies; the national ones only if asked for. -/
def plainOk (ms : List Loader.Metadata) (both : Bool) (w : Nat × Str) : Bool :=
  (headsOf ms w.1).all fun m => (!both && !m.internationalFormats.isEmpty || m.formats.all (unfit w.2)) && m.internationalFormats.all (unfit w.2)

def plain1 : List (Nat × Str) :=
  [(46, str% "99100000"), (47, str% "02000000"), (53, str% "2100000000"), (54, str% "67500000000"), (55, str% "4000000000"),
    (56, str% "80000000000"), (57, str% "4600000000"), (60, str% "420000000"), (61, str% "13000000"), (63, str% "20000000"),
    (65, str% "80000000000"), (66, str% "1800000000000"), (82, str% "31100000"), (90, str% "811000000000"), (213, str% "100000000"),
    (230, str% "20000000"), (241, str% "20000000"), (243, str% "10000000"), (250, str% "060000000"), (252, str% "3500000"),
    (354, str% "611000000"), (376, str% "300000000"), (377, str% "300000000"), (385, str% "100000000"), (423, str% "730000000"),
    (507, str% "11100000"), (508, str% "200000000"), (597, str% "5600000"), (677, str% "4800000"), (678, str% "3000000"),
    (683, str% "5000000"), (685, str% "200000"), (686, str% "20000000"), (688, str% "9000000"), (850, str% "2000000000"),
    (870, str% "300000000000"), (881, str% "0000000001"), (882, str% "34200000"), (883, str% "5100000000"), (961, str% "10000000"),
    (964, str% "100000000"), (971, str% "4000000000"), (974, str% "80000000000")]
def plain2 : List (Nat × Str) :=
  [(31, str% "61111111111"), (49, str% "330011"), (62, str% "177111111111"), (81, str% "1201111111"), (84, str% "79911111"),
    (86, str% "101001111"), (95, str% "84211111"), (231, str% "611111111"), (247, str% "62111"), (248, str% "8000111"),
    (260, str% "631111111"), (263, str% "13111111"), (290, str% "21111"), (350, str% "51111111"), (352, str% "2211"),
    (353, str% "47111111"), (358, str% "10111111111"), (359, str% "008001111111"), (372, str% "90011111"), (383, str% "2811111111"),
    (500, str% "21111"), (595, str% "980011111"), (598, str% "80011111"), (690, str% "2211"), (880, str% "2411111111"),
    (972, str% "21111111111"), (976, str% "531111111")]
def plain3 : List (Nat × Str) :=
  [(91, str% "0008001111111"), (421, str% "9090111"), (504, str% "80021111111"), (977, str% "16600111111")]

theorem plain_check1 : plain1.all (plainOk Data.territories true) = true := by kernel_rfl
theorem plain_check2 : plain2.all (plainOk Data.territories true) = true := by kernel_rfl
theorem plain_check3 : plain3.all (plainOk Data.territories false) = true := by kernel_rfl
theorem plain_valid2 : plain2.all (validOk Data.territories) = true := by kernel_rfl
theorem plain_valid3 : plain3.all (validOk Data.territories) = true := by kernel_rfl

omit [UnicodeTables] in
theorem plain_codes : (plainCodes.all fun c => (plain1 ++ plain2).any fun w => Nat.beq w.1 c) = true := by decide
omit [UnicodeTables] in
theorem plain_abroad : (plainAbroad.all fun c => plain3.any fun w => Nat.beq w.1 c) = true := by decide
omit [UnicodeTables] in
theorem plain1_loose : (plain1.all fun w => (loose1 ++ (loose2 ++ (loose3 ++ loose4))).any fun x => decide (x = w)) = true := by decide

theorem validOk_sound {w : Nat × Str} (hok : validOk Data.territories w = true) : ∃ n : NationalNumber,
    n.display = w.2 ∧ ∀ ε : Type, isValid (ε := ε) ⟨⟨w.1, .plus⟩, n, none, none⟩ = .ok true := by
  have hnd := ids_nodup
  have hfrom := from_builtin
  generalize Data.territories = ms at *
  obtain ⟨f1, f2⟩ := filtered ms hnd w.1
  unfold validOk at hok
  generalize hms : ms.filter (·.countryCode == some w.1) = ms' at *
  split at hok
  · rename_i d hd
    simp only [Bool.and_eq_true] at hok
    obtain ⟨h1, h2, h4⟩ := hok
    have hb := byCode_local hfrom hd (c := w.1) (by rw [hms]; exact f1)
    split at h2
    · rename_i n hn
      rw [decide_eq_true_eq] at h2
      refine ⟨n, h2, ?_⟩
      intro ε
      obtain ⟨src, src', e1, e2, e3⟩ := source_local compile ms ms' db d hfrom hd hnd f2 shared (shared_of_check h1) ε hb w.2
      obtain ⟨src2, src2', e1', e2', e3'⟩ := source_local compile ms ms' db d hfrom hd hnd f2 shared (shared_of_check h1) Unit hb w.2
      rw [e2'] at h4
      simp only at h4
      split at h4
      · rename_i md hmd
        obtain ⟨o, g1, g2⟩ := sourceFor_chosen ε hfrom hnd shared w.1 w.2
        obtain ⟨o', g1', g2'⟩ := sourceFor_chosen Unit hfrom hnd shared w.1 w.2
        rw [e1', Outcome.ok.injEq] at g1'
        subst g1'
        rw [isValid, isValidWith]
        simp only [h2]
        rw [g1, Outcome.bind_ok, g2.unique g2', e3', hmd]
        simpa using h4
      · cases h4
    · cases h2
  · cases hok

theorem unfit_sound {v : Str} {fs : List Loader.Format} {gs : List Format} (h : Spec.ListRel (Spec.FormatOf compile) fs gs)
    (hc : fs.all (unfit v) = true) : ∀ f ∈ gs, ¬ Spec.Applies f v := by
  intro g hg happ
  obtain ⟨f, hf, hrel⟩ := listRel_mem h hg
  have hu := List.all_eq_true.1 hc f hf
  obtain ⟨s, h1, h2⟩ := hrel.pattern
  rw [unfit, h1, Option.bind_some, h2] at hu
  rcases listRel_last hrel.leadingDigits with ⟨e, _⟩ | ⟨a, b, e1, e2, hab⟩
  · rw [e] at hu; cases hu
  · rw [e1, Option.bind_some, show compile a = some b from hab] at hu
    simp only [Bool.not_eq_true'] at hu
    have := applies_iff.2 happ
    rw [meantFor, e2] at this
    simp only [hu] at this
    cases this

/-- Soundness of `plainOk`. -/
theorem plainOk_sound {both : Bool} {w : Nat × Str} (hok : plainOk Data.territories both w = true) {n : PhoneNumber} (hn : n.code.value = w.1)
    (hdisp : n.national.display = w.2) {md : Metadata} (hmd : Spec.MetadataFor db n md) (mode : Mode) (hm : mode = .national → both = true) :
    Spec.NoneChosen md n.national.display mode none := by
  have hfrom := from_builtin
  generalize Data.territories = ms at *
  obtain ⟨l, hl⟩ := hmd
  obtain ⟨k, hk, hek⟩ := head_listed hfrom hl
  rw [hn] at hk
  have := List.all_eq_true.1 hok k hk
  simp only [Bool.and_eq_true, Bool.or_eq_true, Bool.not_eq_true'] at this
  obtain ⟨h1, h2⟩ := this
  refine ⟨rfl, ?_⟩
  rw [hdisp]
  unfold Spec.formatsFor
  split
  · rename_i hx
    refine unfit_sound hek.formats (h1.resolve_left fun hb => ?_)
    rcases hx with hx | hx
    · rw [(listRel_nil hek.internationalFormats).2 hx] at hb
      cases hb.2
    · rw [hm hx] at hb; cases hb.1
  · exact unfit_sound hek.internationalFormats h2

theorem bare_texts {n : PhoneNumber} (he : n.extension = none) (hv : isValid (ε := Unit) n = .ok true) :
    ((∀ md, Spec.MetadataFor db n md → Spec.NoneChosen md n.national.display .national none) → format n .national = .ok n.national.display) ∧
    ((∀ md, Spec.MetadataFor db n md → Spec.NoneChosen md n.national.display .international none) →
      format n .international = .ok (['+'] ++ decStr n.code.value ++ [' '] ++ n.national.display)) ∧
    ((∀ md, Spec.MetadataFor db n md → Spec.NoneChosen md n.national.display .rfc3966 none) →
      format n .rfc3966 = .ok ((str% "tel:+") ++ decStr n.code.value ++ ['-'] ++ n.national.display)) := by
  have key : ∀ {md : Metadata} {mode : Mode} {f : Format}, Spec.NoneChosen md n.national.display mode none →
      ¬ Spec.Chosen md n.national.display mode none f := by
    intro md mode f h1 h2
    rcases h2 with h2 | ⟨_, b, a, e, happ, _⟩
    · cases h2
    · exact h1.2 f (by rw [e]; simp) happ
  refine ⟨fun h => ?_, fun h => ?_, fun h => ?_⟩
  · obtain ⟨s, hs⟩ := valid_formats hv .national
    obtain ⟨md, nat, hmd, e, ⟨_, rfl⟩ | ⟨f, hf, _⟩⟩ := C64_national db n none s hs
    · rw [hs, e, he]; simp [Spec.extensionText]
    · exact absurd hf (key (h md hmd))
  · obtain ⟨s, hs⟩ := valid_formats hv .international
    obtain ⟨md, nat, hmd, e, ⟨_, rfl⟩ | ⟨f, hf, _⟩⟩ := C64_international db n none s hs
    · rw [hs, e, he]; simp [Spec.extensionText]
    · exact absurd hf (key (h md hmd))
  · obtain ⟨s, hs⟩ := valid_formats hv .rfc3966
    obtain ⟨md, nat, hmd, e, ⟨_, rfl⟩ | ⟨f, hf, _⟩⟩ := C37_rfc3966 db n none s hs
    · rw [hs, e, he]; simp [Spec.extensionText]
    · exact absurd hf (key (h md hmd))

omit [UnicodeTables] in
theorem listed_pair {l : List Nat} {ws : List (Nat × Str)} (h : (l.all fun c => ws.any fun w => Nat.beq w.1 c) = true) {c : Nat}
    (hc : c ∈ l) : ∃ w ∈ ws, w.1 = c := by
  obtain ⟨w, hw, e⟩ := List.any_eq_true.1 (List.all_eq_true.1 h c hc)
  exact ⟨w, hw, Nat.eq_of_beq_eq_true e⟩

theorem plain1_valid {w : Nat × Str} (hw : w ∈ plain1) : ∃ n : NationalNumber,
    n.display = w.2 ∧ ∀ ε : Type, isValid (ε := ε) ⟨⟨w.1, .plus⟩, n, none, none⟩ = .ok true := by
  obtain ⟨x, hx, e⟩ := List.any_eq_true.1 (List.all_eq_true.1 plain1_loose w hw)
  obtain rfl := of_decide_eq_true e
  have : looseOk Data.territories x = true := by
    simp only [List.mem_append] at hx
    rcases hx with hx | hx | hx | hx
    · exact List.all_eq_true.1 loose_check1 x hx
    · exact List.all_eq_true.1 loose_check2 x hx
    · exact List.all_eq_true.1 loose_check3 x hx
    · exact List.all_eq_true.1 loose_check4 x hx
  obtain ⟨n, h1, h2, h3, _⟩ := looseOk_sound this
  refine ⟨n.national, h2, fun ε => ?_⟩
  have := h3 ε
  rw [isValid, C63_valid ε compile Data.territories db from_builtin ids_nodup shared] at this ⊢
  rw [h1] at this
  exact this

/-- The texts of a number that passes `plainOk`. -/
theorem plain_texts {both : Bool} {w : Nat × Str} (hok : plainOk Data.territories both w = true) {n : PhoneNumber} (hn : n.code.value = w.1)
    (he : n.extension = none) (hdisp : n.national.display = w.2) (hv : ∀ ε : Type, isValid (ε := ε) n = .ok true) :
    (both = true → format n .national = .ok n.national.display) ∧
    format n .international = .ok (['+'] ++ decStr w.1 ++ [' '] ++ n.national.display) ∧
    format n .rfc3966 = .ok ((str% "tel:+") ++ decStr w.1 ++ ['-'] ++ n.national.display) := by
  obtain ⟨b1, b2, b3⟩ := bare_texts he (hv Unit)
  have key := fun md hmd mode hm => plainOk_sound hok hn hdisp (md := md) hmd mode hm
  refine ⟨fun hb => b1 fun md hmd => key md hmd .national fun _ => hb, ?_, ?_⟩
  · rw [← hn]; exact b2 fun md hmd => key md hmd .international (by simp)
  · rw [← hn]; exact b3 fun md hmd => key md hmd .rfc3966 (by simp)

theorem numbered {w : Nat × Str} (h : ∃ n : NationalNumber, n.display = w.2 ∧
      ∀ ε : Type, isValid (ε := ε) ⟨⟨w.1, .plus⟩, n, none, none⟩ = .ok true) : ∃ n : PhoneNumber, n.code.value = w.1 ∧
    n.extension = none ∧ n.national.display = w.2 ∧ ∀ ε : Type, isValid (ε := ε) n = .ok true := by
  obtain ⟨n, h1, h2⟩ := h
  exact ⟨⟨⟨w.1, .plus⟩, n, none, none⟩, rfl, rfl, h1, h2⟩

/-- C90: for each of the listed calling codes some valid number is written without grouping in every form. -/
theorem C90_plain {c : Nat} (hc : c ∈ [31, 46, 47, 49, 53, 54, 55, 56, 57, 60, 61, 62, 63, 65, 66, 81, 82, 84, 86, 90, 95, 213, 230, 231, 241, 243, 247, 248, 250, 252, 260,
    263, 290, 350, 352, 353, 354, 358, 359, 372, 376, 377, 383, 385, 423, 500, 507, 508, 595, 597, 598, 677, 678, 683, 685, 686, 688, 690,
    850, 870, 880, 881, 882, 883, 961, 964, 971, 972, 974, 976]) :
    ∃ n : PhoneNumber, n.code.value = c ∧ (∀ ε : Type, isValid (ε := ε) n = .ok true) ∧ format n .national = .ok n.national.display ∧
      format n .international = .ok (['+'] ++ decStr c ++ [' '] ++ n.national.display) ∧
      format n .rfc3966 = .ok ((str% "tel:+") ++ decStr c ++ ['-'] ++ n.national.display) := by
  obtain ⟨w, hw, rfl⟩ := listed_pair plain_codes (c := c) hc
  have hok : plainOk Data.territories true w = true := by
    rcases List.mem_append.1 hw with hw | hw
    · exact List.all_eq_true.1 plain_check1 w hw
    · exact List.all_eq_true.1 plain_check2 w hw
  have hnum : ∃ n : NationalNumber, n.display = w.2 ∧ ∀ ε : Type, isValid (ε := ε) ⟨⟨w.1, .plus⟩, n, none, none⟩ = .ok true := by
    rcases List.mem_append.1 hw with hw | hw
    · exact plain1_valid hw
    · exact validOk_sound (List.all_eq_true.1 plain_valid2 w hw)
  obtain ⟨n, h1, h2, h3, h4⟩ := numbered hnum
  obtain ⟨b1, b2, b3⟩ := plain_texts hok h1 h2 h3 h4
  exact ⟨n, h1, h4, b1 rfl, b2, b3⟩

/-- C90: for each of the four other calling codes some valid number is written without grouping in international and RFC 3966 form,
although it is in national form. -/
theorem C90_plain_abroad {c : Nat} (hc : c ∈ [91, 421, 504, 977]) :
    ∃ n : PhoneNumber, n.code.value = c ∧ (∀ ε : Type, isValid (ε := ε) n = .ok true) ∧ (∃ f, Spec.WrittenWith db n .national f) ∧
      format n .international = .ok (['+'] ++ decStr c ++ [' '] ++ n.national.display) ∧
      format n .rfc3966 = .ok ((str% "tel:+") ++ decStr c ++ ['-'] ++ n.national.display) := by
  have hx : ∀ c ∈ [91, 421, 504, 977], c ∉ plainCodes := by decide
  have hc' := hx c hc
  obtain ⟨w, hw, rfl⟩ := listed_pair plain_abroad (c := c) hc
  obtain ⟨n, h1, h2, h3, h4⟩ := numbered (validOk_sound (List.all_eq_true.1 plain_valid3 w hw))
  obtain ⟨_, b2, b3⟩ := plain_texts (List.all_eq_true.1 plain_check3 w hw) h1 h2 h3 h4
  exact ⟨n, h1, h4, C90_national n (h4 Unit) (by rw [h1]; exact hc'), b2, b3⟩

/-- A valid Belgian number and one of Ivory Coast with a leading zero: the codes are not listed. -/
example : ∀ x ∈ wellReadNumbers, x.1 ≠ 54 → ∃ f, Spec.WrittenWith db ⟨⟨x.1, .plus⟩, ⟨x.2⟩, none, none⟩ .international f := by
  intro x hx h54
  have hl : ∀ x ∈ wellReadNumbers, x.1 ≠ 54 → x.1 ∉ plainCodes ∧ x.1 ∉ plainAbroad := by decide
  exact C90_international _ (wellRead_valid x hx).1 _ (hl x hx h54).1 (hl x hx h54).2

/-- Codes of the two lists: Andorra, whose number 300000000 has no format, and Nepal. -/
example : (∃ n : PhoneNumber, n.code.value = 376 ∧ (∀ ε : Type, isValid (ε := ε) n = .ok true) ∧ format n .national = .ok n.national.display) ∧
    ∃ n : PhoneNumber, n.code.value = 977 ∧ ∃ f, Spec.WrittenWith db n .national f := by
  obtain ⟨n, h1, h2, h3, _⟩ := C90_plain (c := 376) (by decide)
  obtain ⟨k, g1, _, g2, _⟩ := C90_plain_abroad (c := 977) (by decide)
  exact ⟨⟨n, h1, h2, h3⟩, k, g1, g2⟩

end Builtin
end Phone
