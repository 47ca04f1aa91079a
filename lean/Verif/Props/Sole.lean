import Verif.Spec.Sole
import Verif.Props.Trunk
/-! # C71: international numbers of a country that does not share its calling code -/

namespace Phone
variable [UnicodeTables]

section
variable (compile : Str → Option Regex) (ms : List Loader.Metadata) (db : Database)
  (hdb : Database.from compile ms = .ok db) (hid : ((ms.filterMap (·.id)).filter (· ≠ worldId)).Nodup)
  (hs : Spec.SharedAreCountries db)

theorem nationalPart_sole {db : Database} {c : Nat} {i : Id} {md : Metadata} (h : Spec.SoleRegion db c i md) (r : Str) :
    Spec.NationalPart md r (Spec.dropPrefix md (Spec.dropPrefix md r)) none :=
  .used (.plain h.noPattern) (by rw [h.noLengths]; rintro ⟨_, _, h, _⟩; cases h)

include hdb hid hs in
/-- C71: the digits after the calling code of such a country are its national number, without the national prefix, which is removed up to
twice; the result depends on nothing else, and a number that results belongs to the country. -/
theorem C71_sole (hpf : Spec.PrefixFree db)
    (ht : ∀ md, Spec.Entry db md → ∀ t, md.nationalPrefixTransformRule = some t → Spec.DigitTemplate t)
    (c : Nat) (i : Id) (md : Metadata) (h : Spec.SoleRegion db c i md) (hc : 1 ≤ c ∧ c ≤ 999) (country : Option Id)
    (r : Str) (hr : ∀ x ∈ r, isDigit x = true) (h3 : 3 ≤ (decStr c ++ r).length)
    (hidd : ∀ x, country = some x → ¬ Spec.BeginsWithIdd db country (decStr c ++ r)) :
    (∀ o, Spec.Verdict (Spec.dropPrefix md (Spec.dropPrefix md r)) (fun n => ⟨⟨c, .plus⟩, n, none, none⟩) o →
      parseWith db country ('+' :: (decStr c ++ r)) = o) ∧
    ∀ p, parseWith db country ('+' :: (decStr c ++ r)) = .ok p → p.countryId db = .ok (some i) := by
  have hreg : ∀ ds, Spec.RegionOf db c ds (some md) := fun ds => .only h.only (.inr ⟨i, h.id⟩)
  have key := fun o => C62_international compile ms db hdb hid hs hpf ht country c (by simp [h.only]) hc r hr h3 hidd
    _ none (.inr ⟨md, hreg _, nationalPart_sole h r⟩) o
  refine ⟨key, fun p hp => ?_⟩
  obtain ⟨o, ho⟩ := verdict_total (nationalPart_digits (ht md (.inr ⟨c, _, h.only, by simp⟩)) hr (nationalPart_sole h r))
    (fun n => ⟨⟨c, .plus⟩, n, none, none⟩)
  have hk := key o ho
  rw [hp] at hk
  subst hk
  have hcode : p.code.value = c := by cases ho; rfl
  obtain ⟨_, _, _, _, h5, _⟩ := C54_queries_no_panic ParseErr compile ms db hdb hs p
  exact (h5 i).2 ⟨md, (C63_metadata ParseErr compile ms db hdb hid hs p _).2 (by rw [hcode]; exact hreg _), h.id⟩

end

omit [UnicodeTables] in
theorem dropOnce_suffix (np s : Str) : ∃ a, s = a ++ Spec.dropOnce np s ∧ (a = [] ∨ a = np) := by
  unfold Spec.dropOnce
  split
  · rename_i h
    obtain ⟨t, rfl⟩ := List.isPrefixOf_iff_prefix.1 h
    exact ⟨np, by simp, .inr rfl⟩
  · exact ⟨[], rfl, .inl rfl⟩

omit [UnicodeTables] in
/-- A national prefix of zero: what remains has at most two digits less and is all zeros exactly if the digits are. -/
theorem dropPrefix_zero {md : Metadata} (h : md.nationalPrefix = none ∨ md.nationalPrefix = some ['0']) (s : Str) :
    s.length ≤ (Spec.dropPrefix md s).length + 1 ∧ (Spec.dropPrefix md s).length ≤ s.length ∧
      ((∃ c ∈ Spec.dropPrefix md s, c ≠ '0') ↔ ∃ c ∈ s, c ≠ '0') := by
  unfold Spec.dropPrefix
  rcases h with h | h
  · rw [h]; simp
  · rw [h]
    obtain ⟨a, ha, ha'⟩ := dropOnce_suffix ['0'] s
    simp only
    generalize Spec.dropOnce ['0'] s = t at ha
    subst ha
    rcases ha' with rfl | rfl <;> simp

/-- C71: if the national prefix is zero (or there is none), four to sixteen digits after the calling code are a number of the country
exactly if they are not all zero. -/
theorem C71_sole_iff (compile : Str → Option Regex) (ms : List Loader.Metadata) (db : Database)
    (hdb : Database.from compile ms = .ok db) (hid : ((ms.filterMap (·.id)).filter (· ≠ worldId)).Nodup)
    (hs : Spec.SharedAreCountries db) (hpf : Spec.PrefixFree db)
    (ht : ∀ md, Spec.Entry db md → ∀ t, md.nationalPrefixTransformRule = some t → Spec.DigitTemplate t)
    (c : Nat) (i : Id) (md : Metadata) (h : Spec.SoleRegion db c i md) (hc : 1 ≤ c ∧ c ≤ 999)
    (hnp : md.nationalPrefix = none ∨ md.nationalPrefix = some ['0'])
    (r : Str) (hr : ∀ x ∈ r, isDigit x = true) (h4 : 4 ≤ r.length) (h16 : r.length ≤ 16) (country : Option Id)
    (hidd : ∀ x, country = some x → ¬ Spec.BeginsWithIdd db country (decStr c ++ r)) :
    ((∃ x ∈ r, x ≠ '0') → ∃ p, parseWith db country ('+' :: (decStr c ++ r)) = .ok p ∧ p.countryId db = .ok (some i)) ∧
    ((∀ x ∈ r, x = '0') → parseWith db country ('+' :: (decStr c ++ r)) = .err (.malformedInteger .empty)) := by
  have hlen1 : 1 ≤ (decStr c).length := List.length_pos_iff.2 (decStr_ne_nil _)
  obtain ⟨k1, k2⟩ := C71_sole compile ms db hdb hid hs hpf ht c i md h hc country r hr (by rw [List.length_append]; omega) hidd
  have hd := nationalPart_digits (ht md (.inr ⟨c, _, h.only, by simp⟩)) hr (nationalPart_sole h r)
  obtain ⟨a1, a2, a3⟩ := dropPrefix_zero hnp r
  obtain ⟨b1, b2, b3⟩ := dropPrefix_zero hnp (Spec.dropPrefix md r)
  rw [a3] at b3
  generalize Spec.dropPrefix md (Spec.dropPrefix md r) = out at *
  have hval : decVal out < 2 ^ 56 := by
    have := decVal_lt hd
    have h10 : 10 ^ out.length ≤ 10 ^ 16 := Nat.pow_le_pow_right (by decide) (by omega)
    omega
  obtain ⟨o, ho⟩ := verdict_total hd (fun n => (⟨⟨c, .plus⟩, n, none, none⟩ : PhoneNumber))
  have hk := k1 o ho
  cases ho with
  | short h => omega
  | long h => omega
  | zero _ _ h =>
    refine ⟨fun hx => ?_, fun _ => hk⟩
    obtain ⟨x, hx, hx'⟩ := b3.2 hx
    exact absurd (h x hx) hx'
  | ok _ _ hx _ =>
    refine ⟨fun _ => ⟨_, hk, k2 _ hk⟩, fun hz => ?_⟩
    obtain ⟨x, hx, hx'⟩ := b3.1 hx
    exact absurd (hz x hx) hx'

end Phone
