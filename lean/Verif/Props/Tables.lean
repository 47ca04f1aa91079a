import Verif.Props.Format
import Verif.Spec.Tables
/-! # C104: what the Unicode tables are used for -/

namespace Phone
open Helper Formatter

/-- The classes of a regular expression. -/
def Re.classes : Re → List Cls
  | .eps | .bos | .eos => []
  | .cls k => [k]
  | .cat a b | .alt a b => a.classes ++ b.classes
  | .star _ a | .grp _ a => a.classes

section
variable {T T' : UnicodeTables}

theorem same_isDigit {s : Str} (h : ∀ c ∈ s, isDigit c = true) : Spec.SameTables T T' s := by
  intro c hc h'
  have := isDigit_iff.1 (h c hc)
  omega

theorem same_sub {s t : Str} (h : Spec.SameTables T T' s) (ht : ∀ c ∈ t, c ∈ s) : Spec.SameTables T T' t := fun c hc => h c (ht c hc)

theorem mem_same {c : Char} (h : 128 ≤ c.toNat → T.nd c = T'.nd c ∧ T.n c = T'.n c ∧ T.l c = T'.l c) (k : Cls) :
    @Cls.mem T k c = @Cls.mem T' k c := by
  have hi : ∀ i : CItem, @CItem.mem T c i = @CItem.mem T' c i := by
    intro i
    cases i with
    | range lo hi => rfl
    | nd => simp only [CItem.mem, isNd]; split; · rfl
            · exact (h (by omega)).1
    | n => simp only [CItem.mem, isN]; split; · rfl
           · exact (h (by omega)).2.1
    | l => simp only [CItem.mem, isL]; split; · rfl
           · exact (h (by omega)).2.2
  unfold Cls.mem
  rw [show @CItem.mem T c = @CItem.mem T' c from funext hi]

theorem run_chars (r : Re) {s s' : St} (h : s' ∈ @run T r s) : ∀ c ∈ s'.rest, c ∈ s.rest := by
  obtain ⟨w, hw, _⟩ := @run_sound T r s s' h
  intro c hc
  rw [hw.rest]
  simp [hc]

theorem flatMap_same {α β : Type} {l : List α} {f g : α → List β} (h : ∀ a ∈ l, f a = g a) : l.flatMap f = l.flatMap g := by
  induction l with
  | nil => rfl
  | cons a l ih =>
    simp only [List.flatMap_cons, h a (by simp), ih fun b hb => h b (by simp [hb])]

theorem starRun_same {P : St → Prop} {f f' : St → List St} (hP : ∀ s, P s → f s = f' s) (hp : ∀ s, P s → ∀ s' ∈ f s, P s') (g : Bool) :
    ∀ n s, P s → starRun f g n s = starRun f' g n s := by
  intro n
  induction n with
  | zero => intro s _; rfl
  | succ n ih =>
    intro s hs
    simp only [starRun]
    rw [← hP s hs, flatMap_same (l := f s) (g := fun s' => if s'.rest.length < s.rest.length then starRun f' g n s' else [])]
    intro s' hs'
    simp only [ih s' (hp s hs s' hs')]

/-- The matcher asks the tables only about the characters of the text, and only for the classes of the expression. -/
theorem run_same (r : Re) : ∀ s : St, (∀ k ∈ r.classes, ∀ c ∈ s.rest, @Cls.mem T k c = @Cls.mem T' k c) → @run T r s = @run T' r s := by
  induction r with
  | eps => intro s _; rfl
  | bos => intro s _; rfl
  | eos => intro s _; rfl
  | cls k =>
    intro s h
    simp only [run]
    cases hs : s.rest with
    | nil => rfl
    | cons c cs => simp only [h k (by simp [Re.classes]) c (by simp [hs])]
  | cat a b iha ihb =>
    intro s h
    simp only [run]
    rw [← iha s fun k hk => h k (by simp [Re.classes, hk])]
    refine flatMap_same fun s' hs' => ihb s' fun k hk c hc => h k (by simp [Re.classes, hk]) c (run_chars a hs' c hc)
  | alt a b iha ihb =>
    intro s h
    simp only [run]
    rw [iha s fun k hk => h k (by simp [Re.classes, hk]), ihb s fun k hk => h k (by simp [Re.classes, hk])]
  | star g a iha =>
    intro s h
    simp only [run]
    refine starRun_same (P := fun s => ∀ k ∈ a.classes, ∀ c ∈ s.rest, @Cls.mem T k c = @Cls.mem T' k c) (fun s hs => iha s hs) ?_ g _ s h
    intro s hs s' hs' k hk c hc
    exact hs k hk c (run_chars a hs' c hc)
  | grp n a iha =>
    intro s h
    simp only [run]
    rw [iha s h]

theorem searchFrom_same {r : Re} {rest : Str} (h : ∀ k ∈ r.classes, ∀ c ∈ rest, @Cls.mem T k c = @Cls.mem T' k c) (pre : Str) :
    @searchFrom T r pre rest = @searchFrom T' r pre rest := by
  have hm : ∀ pre rest, (∀ k ∈ r.classes, ∀ c ∈ rest, @Cls.mem T k c = @Cls.mem T' k c) →
      @matchAt T r pre rest = @matchAt T' r pre rest := by
    intro pre rest h
    unfold matchAt
    rw [run_same r _ h]
  induction rest generalizing pre with
  | nil => simp only [searchFrom, hm pre [] h]
  | cons c cs ih =>
    simp only [searchFrom, hm pre _ h]
    rw [ih fun k hk d hd => h k hk d (by simp [hd])]

theorem find_same {s : Str} (h : Spec.SameTables T T' s) (r : Regex) : @Regex.find T r s = @Regex.find T' r s :=
  searchFrom_same (fun k _ c hc => mem_same (h c hc) k) []

/-- An expression without classes from the tables. -/
def tableFree (r : Re) : Bool := r.classes.all fun k => k.items.all fun i => match i with | .range _ _ => true | _ => false

theorem find_free {r : Regex} (h : tableFree r.re = true) (s : Str) : @Regex.find T r s = @Regex.find T' r s := by
  refine searchFrom_same (fun k hk c _ => ?_) []
  have hk := List.all_eq_true.1 h k hk
  unfold Cls.mem
  congr 1
  rw [Bool.eq_iff_iff, List.any_eq_true, List.any_eq_true]
  constructor
  all_goals
    rintro ⟨i, hi, h'⟩
    refine ⟨i, hi, ?_⟩
    have := List.all_eq_true.1 hk i hi
    cases i with
    | range lo hi => exact h'
    | nd => cases this
    | n => cases this
    | l => cases this


theorem isMatch_same {s : Str} (h : Spec.SameTables T T' s) (r : Regex) : @Regex.isMatch T r s = @Regex.isMatch T' r s := by
  simp only [Regex.isMatch, find_same h r]

theorem descriptor_same {s : Str} (h : Spec.SameTables T T' s) (d : Descriptor) : @Descriptor.isMatch T d s = @Descriptor.isMatch T' d s := by
  simp only [Descriptor.isMatch, find_same h]

theorem digits_same {s : Str} (h : Digits s) : Spec.SameTables T T' s := same_isDigit h

/-! ## Validation -/

theorem numberType_same {s : Str} (h : Spec.SameTables T T' s) (md : Metadata) : @numberType T md s = @numberType T' md s := by
  have hd : @descMatch T = @descMatch T ∧ ∀ d, @descMatch T d s = @descMatch T' d s := by
    refine ⟨rfl, fun d => ?_⟩
    cases d with
    | none => rfl
    | some d => simp only [descMatch, Option.map_some, descriptor_same h]
  simp only [numberType, hd.2, descriptor_same h]

theorem sourceLoop_same {ε : Type} (db : Database) {s : Str} (h : Spec.SameTables T T' s) (rs : List Str) :
    @sourceLoop T ε db s rs = @sourceLoop T' ε db s rs := by
  induction rs with
  | nil => rfl
  | cons r rs ih =>
    have hr : ∀ md, @regionHit T md s = @regionHit T' md s := by
      intro md
      unfold regionHit
      split
      · simp only [find_same h]
      · simp only [numberType_same h]
    simp only [sourceLoop, hr, ih]

theorem sourceFor_same {ε : Type} (db : Database) (code : Nat) {s : Str} (h : Spec.SameTables T T' s) :
    @sourceFor T ε db code s = @sourceFor T' ε db code s := by
  unfold sourceFor
  simp only [sourceLoop_same db h]

/-! ## Reading -/

theorem cutBefore_same {s : Str} (h : Spec.SameTables T T' s) (r : Regex) : @cutBefore T r s = @cutBefore T' r s := by
  simp only [cutBefore, find_same h]

theorem bind_same {ε α β : Type} {x : Outcome ε α} {f g : α → Outcome ε β} (h : ∀ a, x = .ok a → f a = g a) : x >>= f = x >>= g := by
  cases x with
  | ok a => exact h a rfl
  | err e => rfl
  | panic p => rfl

theorem dropBytes_chars {s r : Str} {n : Nat} (h : dropBytes s n = some r) : ∀ c ∈ r, c ∈ s := by
  obtain ⟨a, ha, _⟩ := dropBytes_eq_some h
  intro c hc
  rw [ha]; simp [hc]

theorem takeBytes_chars {s r : Str} {n : Nat} (h : takeBytes s n = some r) : ∀ c ∈ r, c ∈ s := by
  obtain ⟨a, ha, _⟩ := takeBytes_eq_some h
  intro c hc
  rw [ha]; simp [hc]

theorem cutBefore_chars {r : Regex} {s t : Str} (h : @cutBefore T r s = .ok t) : ∀ c ∈ t, c ∈ s := by
  unfold cutBefore at h
  split at h
  · rw [Outcome.slice_eq_ok] at h
    exact takeBytes_chars h
  · cases h; exact fun c hc => hc

theorem extract_same {s : Str} (h : Spec.SameTables T T' s) : @extract T s = @extract T' s := by
  unfold extract
  rw [find_same h]
  split
  · rfl
  · refine bind_same fun a ha => ?_
    have ha : Spec.SameTables T T' a := same_sub h (dropBytes_chars (Outcome.slice_eq_ok.1 ha))
    rw [cutBefore_same ha]
    refine bind_same fun b hb => ?_
    rw [cutBefore_same (same_sub ha (cutBefore_chars hb))]

theorem natural_same {s : Str} (h : Spec.SameTables T T' s) : @Natural.phoneNumber T s = @Natural.phoneNumber T' s := by
  unfold Natural.phoneNumber
  rw [extract_same h]
  refine bind_same fun r hr => ?_
  have hr : Spec.SameTables T T' r := by
    rcases @extract_spec T' s with ⟨e, he⟩ | ⟨a, r', b, he, hs, _⟩
    · rw [he] at hr; cases hr
    · rw [he] at hr; cases hr
      refine same_sub h fun c hc => ?_
      rw [hs]; simp [hc]
  rw [find_same hr]

theorem readNumber_same {s : Str} (h : Spec.SameTables T T' s) : @readNumber T s = @readNumber T' s := by
  unfold readNumber
  rw [natural_same h]

/-! ## The country code -/

theorem stripIdd_same {ε : Type} (idd : Option Regex) {n : Number} (h : Digits n.national) :
    @stripIdd T ε idd n = @stripIdd T' ε idd n := by
  cases idd with
  | none => rfl
  | some r => simp only [stripIdd, Option.bind_some, find_same (digits_same h : Spec.SameTables T T' _)]

theorem internationalPrefix_same {ε : Type} (idd : Option Regex) (n : Number) :
    @internationalPrefix T ε idd n = @internationalPrefix T' ε idd n := by
  have hv : @Regex.isMatch T Consts.validAlphaPhone n.national = @Regex.isMatch T' Consts.validAlphaPhone n.national := by
    unfold Regex.isMatch
    rw [find_free (T := T) (T' := T') (by kernel_rfl)]
  have hd : ∀ (b : Bool) (m : Number), Digits (normalize m (if b = true then Consts.alphaPhoneMappings else Consts.asciiMappings)).national := by
    intro b m
    cases b
    · exact (norm_normalize m false).national
    · exact (norm_normalize m true).national
  unfold internationalPrefix
  rw [hv]
  simp only
  split
  · rfl
  · split
    · refine bind_same fun nat _ => ?_
      rw [stripIdd_same (T' := T') idd (hd _ _)]
      have : ∀ re s, Digits s → @matchesAtStart T re s = @matchesAtStart T' re s := fun re s hs => by
        simp only [matchesAtStart, find_same (digits_same hs : Spec.SameTables T T' s)]
      simp only [fun re => this re _ (hd (@Regex.isMatch T' Consts.validAlphaPhone n.national) { n with country := .plus, national := nat })]
    · exact stripIdd_same idd (hd _ _)

theorem countryCode_same (db : Database) (country : Option Id) {n : Number} (hn : '\n' ∉ n.national) :
    @countryCode T db country n = @countryCode T' db country n := by
  unfold countryCode
  simp only [internationalPrefix_same (T := T) (T' := T')]
  refine bind_same fun r hr => ?_
  have hd : Digits r.national := by
    obtain ⟨r', h1, post⟩ := @internationalPrefix_spec T' ParseErr (iddFor db country) n hn
    simp only [iddFor] at h1
    rw [h1] at hr
    cases hr
    exact post.norm.national
  simp only [descriptor_same (digits_same hd (T := T) (T' := T'))]

theorem parseMeta_same (db : Database) (country : Option Id) {n : Number} (hd : Digits n.national) :
    @parseMeta T db country n = @parseMeta T' db country n := by
  have h : Spec.SameTables T T' (n.national.dropWhile (· == '0')) :=
    same_sub (digits_same hd) fun c hc => (List.dropWhile_sublist _).mem hc
  unfold parseMeta
  split
  · rfl
  · simp only [sourceFor_same db _ h]

/-! ## The national number -/

theorem capRef_chars {P : Char → Prop} {m : Match} (hm : ∀ k t, m.get k = some t → ∀ c ∈ t, P c) (name : Str) :
    ∀ c ∈ capRef m name, P c := by
  unfold capRef
  split
  · cases h : m.get (decVal name) with
    | none => simp
    | some t => exact hm _ t h
  · simp

theorem expand_all_chars {P : Char → Prop} {m : Match} (hm : ∀ k t, m.get k = some t → ∀ c ∈ t, P c) (hd : P '$') (hb : P '{') {t : Str}
    (ht : ∀ c ∈ t, P c) : ∀ c ∈ expand m t, P c := by
  have : ∀ t, (∀ c ∈ t, P c) → ∀ mode, (match mode with | .brace acc => ∀ c ∈ acc, P c | _ => True) →
      ∀ c ∈ expandAux m mode t, P c := by
    have hc := capRef_chars hm
    intro t
    induction t with
    | nil =>
      intro _ mode hacc
      cases mode with
      | text => simp [expandAux]
      | dollar => simpa [expandAux] using hd
      | name acc => exact hc acc
      | brace acc =>
        intro c h
        simp only [expandAux, List.mem_cons] at h
        rcases h with rfl | rfl | h
        · exact hd
        · exact hb
        · exact hacc c h
    | cons a t ih =>
      intro ht mode hacc
      have ha : P a := ht a (by simp)
      have ih := ih fun c h => ht c (by simp [h])
      intro c h
      cases mode with
      | text =>
        simp only [expandAux] at h
        split at h
        · exact ih .dollar trivial c h
        · rcases List.mem_cons.1 h with rfl | h
          · exact ha
          · exact ih .text trivial c h
      | dollar =>
        simp only [expandAux] at h
        split at h
        · rcases List.mem_cons.1 h with rfl | h
          · exact hd
          · exact ih .text trivial c h
        · split at h
          · split at h
            · exact ih (.brace []) (by simp) c h
            · simp only [List.mem_cons] at h
              rcases h with rfl | rfl | h
              · exact hd
              · exact ha
              · exact ih .text trivial c h
          · split at h
            · exact ih (.name _) trivial c h
            · simp only [List.mem_cons] at h
              rcases h with rfl | rfl | h
              · exact hd
              · exact ha
              · exact ih .text trivial c h
      | name acc =>
        simp only [expandAux] at h
        split at h
        · exact ih (.name _) trivial c h
        · split at h
          · rcases List.mem_append.1 h with h | h
            · exact hc _ c h
            · exact ih .dollar trivial c h
          · rcases List.mem_append.1 h with h | h
            · exact hc _ c h
            · rcases List.mem_cons.1 h with rfl | h
              · exact ha
              · exact ih .text trivial c h
      | brace acc =>
        simp only [expandAux] at h
        split at h
        · rcases List.mem_append.1 h with h | h
          · exact hc _ c h
          · exact ih .text trivial c h
        · refine ih (.brace _) ?_ c h
          intro d hd
          rcases List.mem_append.1 hd with hd | hd
          · exact hacc d hd
          · rw [List.mem_singleton.1 hd]; exact ha
  exact this t ht .text trivial

theorem nationalNumber_same {ε : Type} {md : Metadata} (hr : ∀ t, md.nationalPrefixTransformRule = some t → Spec.SameTables T T' t)
    {n : Number} (hd : Digits n.national) : @nationalNumber T ε md n = @nationalNumber T' ε md n := by
  have hn : Spec.SameTables T T' n.national := digits_same hd
  unfold nationalNumber
  split
  · rfl
  · rename_i re hre
    rw [find_same hn]
    split
    · rfl
    · rename_i m hm
      split
      · rfl
      · rw [descriptor_same hn]
        simp only
        split
        · rename_i t l ht hl
          have he : @Regex.replace T re n.national t = @Regex.replace T' re n.national t := by
            simp only [Regex.replace, find_same hn]
          rw [he]
          have : Spec.SameTables T T' (@Regex.replace T' re n.national t) := by
            have f := @find_eq_some T' _ _ _ hm
            unfold Regex.replace
            rw [hm]
            have hsub : ∀ {x a b : Str}, n.national = a ++ x ++ b → Spec.SameTables T T' x := by
              intro x a b hx
              refine same_sub hn fun c hc => ?_
              rw [hx]; simp [hc]
            have h1 : Spec.SameTables T T' m.pre := hsub (a := []) (b := m.text ++ m.post) (by rw [f.split]; simp)
            have h3 : Spec.SameTables T T' m.post := hsub (a := m.pre ++ m.text) (b := []) (by rw [f.split]; simp)
            have h2 : Spec.SameTables T T' (expand m t) := by
              refine expand_all_chars ?_ (fun h => absurd h (by decide)) (fun h => absurd h (by decide)) (hr t ht)
              intro k x hk
              obtain ⟨u, v, huv⟩ := @Found.get T' _ _ _ f _ _ hk
              exact hsub (a := m.pre ++ u) (b := v ++ m.post) (by rw [f.split, huv]; simp)
            intro c hc
            simp only [List.mem_append] at hc
            rcases hc with (hc | hc) | hc
            · exact h1 c hc
            · exact h2 c hc
            · exact h3 c hc
          rw [descriptor_same this]
        · refine bind_same fun again hagain => ?_
          rw [descriptor_same (same_sub hn (dropBytes_chars (Outcome.slice_eq_ok.1 hagain)))]

/-- C104: the result of parsing is the same with two versions of the Unicode tables that class the non-ASCII characters of the
text, and of the transform rules of the database, alike. -/
theorem C104_parse (db : Database) (hdb : Spec.SameForDatabase T T' db) (country : Option Id) (s : Str) (h : Spec.SameTables T T' s) :
    @parseWith T db country s = @parseWith T' db country s := by
  unfold parseWith
  rw [readNumber_same h]
  refine bind_same fun n hn => ?_
  split
  · rfl
  · rename_i hv
    have hv : isViable n.national = true := by simpa using hv
    have hl := ((C14_isViable_iff _).1 hv).no_newline
    rw [countryCode_same db country hl]
    refine bind_same fun n1 h1 => ?_
    have hd : Digits n1.national := by
      rcases @countryCode_spec T' db country n hl with ⟨he, _⟩ | ⟨e, he, _⟩ | ⟨r, hr, post⟩
      · rw [he] at h1; cases h1
      · rw [he] at h1; cases h1
      · rw [hr] at h1; cases h1; exact post.norm.national
    rw [parseMeta_same db country hd]
    refine bind_same fun md hmd => ?_
    have : @stripNational T md n1 = @stripNational T' md n1 := by
      cases md with
      | none => rfl
      | some md =>
        simp only [stripNational]
        rw [nationalNumber_same (hdb.rules md (@parseMeta_entry T' _ _ _ _ hmd)) hd]
    rw [this]

/-- C104: the questions about a number do not depend on the version of Unicode at all. -/
theorem C104_questions {ε : Type} (db : Database) (p : PhoneNumber) :
    (@isValidWith T ε db p = @isValidWith T' ε db p) ∧
    (@PhoneNumber.metadata T ε p db = @PhoneNumber.metadata T' ε p db) ∧
    (@PhoneNumber.numberTypeWith T ε p db = @PhoneNumber.numberTypeWith T' ε p db) ∧
    (@PhoneNumber.countryId T p db = @PhoneNumber.countryId T' p db) := by
  have h1 : Spec.SameTables T T' p.national.display := digits_same (digits_display _)
  have h2 : Spec.SameTables T T' (decStr p.national.value.toNat) := digits_same (digits_decStr _)
  have hm : ∀ ε, @PhoneNumber.metadata T ε p db = @PhoneNumber.metadata T' ε p db := by
    intro ε
    simp only [PhoneNumber.metadata, sourceFor_same db _ h2]
  refine ⟨?_, hm ε, ?_, ?_⟩
  · simp only [isValidWith, sourceFor_same db _ h1, numberType_same h1]
  · simp only [PhoneNumber.numberTypeWith, hm, numberType_same h2]
  · simp only [PhoneNumber.countryId, hm]

/-! ## Formatting -/

theorem formatter_same {s : Str} (h : Spec.SameTables T T' s) (fs : List Format) : @formatter T s fs = @formatter T' s fs := by
  induction fs with
  | nil => rfl
  | cons f fs ih =>
    have : @meantFor T s f = @meantFor T' s f := by
      unfold meantFor
      simp only [leadingMatches, patternMatches, find_same h]
    simp only [formatter, this, ih]

theorem formatter_mem {s : Str} {fs : List Format} {f : Format} (h : @formatter T s fs = some f) : f ∈ fs := by
  induction fs with
  | nil => cases h
  | cons g fs ih =>
    simp only [formatter] at h
    split at h
    · cases h; simp
    · simp [ih h]

theorem replaceFormat_same {ε : Type} {national : Str} (h : Spec.SameTables T T' national) (md : Metadata) {f : Format}
    (hf : Spec.SameTables T T' f.format) (tr carrier : Option Str) :
    @Formatter.replace T ε national md f tr carrier = @Formatter.replace T' ε national md f tr carrier := by
  have ht : @template T ε md f tr carrier = @template T' ε md f tr carrier := by
    unfold template
    simp only [Regex.replace, find_same hf]
  unfold Formatter.replace
  simp only [ht, Regex.replace, find_same h]

theorem separators_same (s : Str) : @Regex.replaceAllLit T Consts.separatorPattern s ['-'] = @Regex.replaceAllLit T' Consts.separatorPattern s ['-'] := by
  unfold Regex.replaceAllLit
  generalize s.length + 1 = k
  induction k generalizing s with
  | zero => rfl
  | succ k ih =>
    simp only [Regex.replaceAllAux]
    rw [find_free (T := T) (T' := T') (by kernel_rfl)]
    simp only [ih]

/-- C104: the texts written for a number are the same with two versions of the Unicode tables that class the non-ASCII characters
of the format texts (of the database and of the format given by the caller) alike; in E.164 notation always. -/
theorem C104_format (db : Database) (p : PhoneNumber) (mode : Mode) (custom : Option Format)
    (h : mode = .e164 ∨ Spec.SameForDatabase T T' db ∧ ∀ f, custom = some f → Spec.SameTables T T' f.format) :
    @fmt T db p mode custom = @fmt T' db p mode custom := by
  unfold fmt
  split
  · rfl
  · rename_i md hmd
    rcases h with rfl | ⟨hdb, hc⟩
    · rfl
    have hn : Spec.SameTables T T' p.national.display := digits_same (digits_display _)
    have he : Spec.Entry db md := by
      rw [Option.bind_eq_some_iff] at hmd
      obtain ⟨l, h1, h2⟩ := hmd
      exact .inr ⟨_, l, h1, List.mem_of_head? h2⟩
    have hch : ∀ f, (custom.orElse fun _ => @formatter T' p.national.display (candidates md mode)) = some f → Spec.SameTables T T' f.format := by
      intro f hf
      cases custom with
      | some g => cases hf; exact hc _ rfl
      | none =>
        have := formatter_mem hf
        unfold candidates at this
        split at this
        · exact hdb.formats md he f (.inl this)
        · exact hdb.formats md he f (.inr this)
    unfold body
    simp only [formatter_same hn]
    generalize (custom.orElse fun _ => @formatter T' p.national.display (candidates md mode)) = ch at hch
    cases ch with
    | none => cases mode <;> rfl
    | some f =>
      have hr : ∀ tr c, @Formatter.replace T FmtErr p.national.display md f tr c = @Formatter.replace T' FmtErr p.national.display md f tr c :=
        fun tr c => replaceFormat_same hn md (hch f rfl) tr c
      cases mode with
      | e164 => rfl
      | international => simp only [internationalPart, hr]
      | national => simp only [nationalPart, nationalWith, hr]
      | rfc3966 => simp only [rfcPart, hr, separators_same (T := T) (T' := T')]

end

/-- Tables in which `é` is a letter or not. -/
@[instance_reducible] def acute (b : Bool) : UnicodeTables where
  nd _ := false
  n _ := false
  l c := b && c == 'é'
  nd_n _ h := h

/-- the two versions differ, but not for this text with a wide plus sign and an em dash -/
example : Spec.SameTables (acute true) (acute false) (str% "＋39 06—1234567") := by
  intro c hc _
  simp only [List.mem_cons, List.not_mem_nil, or_false] at hc
  rcases hc with rfl | rfl | rfl | rfl | rfl | rfl | rfl | rfl | rfl | rfl | rfl | rfl | rfl | rfl <;> decide

/-- a text for which they do matter: what is not a letter is dropped from the end -/
example : @parseWith (acute true) Sample.db none (str% "+54 01115-2345-6789é") = .err .noNumber ∧
    @parseWith (acute false) Sample.db none (str% "+54 01115-2345-6789é") =
      .ok { code := ⟨54, .plus⟩, national := ⟨91123456789⟩, extension := none, carrier := some (str% "11") } :=
  ⟨by kernel_rfl, by kernel_rfl⟩

/-- the sample database is written in ASCII -/
example : Spec.SameForDatabase (acute true) (acute false) Sample.db := by
  have key : Sample.db.entries.all (fun md => (md.nationalPrefixTransformRule.toList ++ (md.formats ++ md.internationalFormats).map (·.format)).all
      fun t => t.all fun c => decide (c.toNat < 128)) = true := by kernel_rfl
  refine ⟨fun md h t ht c hc h' => ?_, fun md h f hf c hc h' => ?_⟩
  all_goals
    have := forall_entry key h
    simp only [List.all_eq_true, List.mem_append, List.mem_map, Option.mem_toList, decide_eq_true_eq] at this
  · have := this t (.inl ht) c hc; omega
  · have := this f.format (.inr ⟨f, hf, rfl⟩) c hc; omega

end Phone
