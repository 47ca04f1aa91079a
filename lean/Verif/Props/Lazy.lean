import Verif.Spec.Lazy
/-
Lazily initialised statics give schedule-independent results (C44).
-/
set_option linter.unusedSimpArgs false

namespace Phone.Lazy

variable {κ V τ : Type} [DecidableEq κ] [DecidableEq τ] {init : κ → Prog κ V} {p : τ → Prog κ V}

@[simp] theorem set_self {α β : Type} [DecidableEq α] (f : α → β) (a : α) (b : β) : set f a b a = b := by simp [set]

theorem set_ne {α β : Type} [DecidableEq α] (f : α → β) {a x : α} (b : β) (h : x ≠ a) : set f a b x = f x := by simp [set, h]

omit [DecidableEq κ] in
/-- **C44**: a computation on its own has at most one result. -/
theorem C44_sequential_unique {q : Prog κ V} {r r' : Option V} (h : Eval init q r) (h' : Eval init q r') : r = r' := by
  induction h generalizing r' with
  | ret v => cases h'; rfl
  | panic => cases h'; rfl
  | force _ _ ih1 ih2 =>
    cases h' with
    | force g1 g2 => cases ih1 g1; exact ih2 g2
    | forcePanic g1 => exact absurd (ih1 g1) (by simp)
  | forcePanic _ ih =>
    cases h' with
    | force g1 g2 => exact absurd (ih g1) (by simp)
    | forcePanic g1 => rfl

omit [DecidableEq κ] in
/-- **C44**: and it has one, if no initialiser needs itself. -/
theorem C44_sequential_exists (ha : Acyclic init) (q : Prog κ V) : ∃ r, Eval init q r := by
  obtain ⟨rank, hr⟩ := ha
  have body : ∀ (q : Prog κ V) (n : Nat), (∀ c, Uses q c → rank c < n) → (∀ c, rank c < n → ∃ r, Eval init (init c) r) →
      ∃ r, Eval init q r := by
    intro q
    induction q with
    | ret v => exact fun _ _ _ => ⟨_, .ret v⟩
    | panic => exact fun _ _ _ => ⟨_, .panic⟩
    | force c k ih =>
      intro n hu hi
      obtain ⟨r, h⟩ := hi c (hu c .here)
      cases r with
      | none => exact ⟨_, .forcePanic h⟩
      | some v =>
        obtain ⟨r', h'⟩ := ih v n (fun c' h' => hu c' (.later h')) hi
        exact ⟨r', .force h h'⟩
  have cell : ∀ n c, rank c < n → ∃ r, Eval init (init c) r := by
    intro n
    induction n with
    | zero => intro c h; omega
    | succ n ih => exact fun c h => body _ n (fun c' hu => by have := hr c c' hu; omega) ih
  induction q with
  | ret v => exact ⟨_, .ret v⟩
  | panic => exact ⟨_, .panic⟩
  | force c k ih =>
    obtain ⟨r, h⟩ := cell _ c (Nat.lt_succ_self _)
    cases r with
    | none => exact ⟨_, .forcePanic h⟩
    | some v =>
      obtain ⟨r', h'⟩ := ih v
      exact ⟨r', .force h h'⟩

/-! ## The invariant -/

/-- Finishing `q` and then working off the stack is a way of computing `p`. -/
def Leads (init : κ → Prog κ V) (p : Prog κ V) : Prog κ V → List (κ × (V → Prog κ V)) → Prop
  | q, [] => ∀ r, Eval init q r → Eval init p r
  | q, (c, k) :: st => (∀ r, Eval init q r → Eval init (init c) r) ∧ Leads init p (.force c k) st

omit [DecidableEq κ] in
theorem Leads.mono {p q q' : Prog κ V} {st} (h : Leads init p q st) (hq : ∀ r, Eval init q' r → Eval init q r) :
    Leads init p q' st := by
  cases st with
  | nil => exact fun r hr => h r (hq r hr)
  | cons x st => exact ⟨fun r hr => h.1 r (hq r hr), h.2⟩

/-- What holds in every state that is reached. -/
structure Inv (init : κ → Prog κ V) (p : τ → Prog κ V) (s : State κ V τ) : Prop where
  done : ∀ t r, s.threads t = .done r → Eval init (p t) r
  leads : ∀ t q st, s.threads t = .run q st → Leads init (p t) q st
  ready : ∀ c v, s.cells c = .ready v → Eval init (init c) (some v)
  poisoned : ∀ c, s.cells c = .poisoned → Eval init (init c) none
  stack : ∀ t q st, s.threads t = .run q st → ∀ x ∈ st, s.cells x.1 = .running t
  nodup : ∀ t q st, s.threads t = .run q st → (st.map Prod.fst).Nodup
  running : ∀ c t, s.cells c = .running t → ∃ q st, s.threads t = .run q st ∧ c ∈ st.map Prod.fst
  fresh : ∀ c, s.cells c = .fresh → s.starts c = 0
  used : ∀ c, s.cells c ≠ .fresh → s.starts c = 1

omit [DecidableEq κ] [DecidableEq τ] in
theorem inv_start : Inv init p (start p) where
  done := by simp [start]
  leads := by
    intro t q st h
    simp only [start, Thread.run.injEq] at h
    obtain ⟨rfl, rfl⟩ := h
    exact fun r hr => hr
  ready := by simp [start]
  poisoned := by simp [start]
  stack := by
    intro t q st h
    simp only [start, Thread.run.injEq] at h
    obtain ⟨rfl, rfl⟩ := h
    simp
  nodup := by
    intro t q st h
    simp only [start, Thread.run.injEq] at h
    obtain ⟨rfl, rfl⟩ := h
    simp
  running := by simp [start]
  fresh := by simp [start]
  used := by simp [start]

omit [DecidableEq κ] in
/-- A step that changes only one thread, and not its stack. -/
theorem Inv.go {s : State κ V τ} (h : Inv init p s) {t q q' st} (ht : s.threads t = .run q st)
    (hq : ∀ r, Eval init q' r → Eval init q r) : Inv init p { s with threads := set s.threads t (.run q' st) } where
  done := by
    intro t' r h'
    by_cases e : t' = t
    · subst e; simp at h'
    · simp only [set_ne _ _ e] at h'; exact h.done t' r h'
  leads := by
    intro t' q'' st' h'
    by_cases e : t' = t
    · subst e
      simp only [set_self, Thread.run.injEq] at h'
      obtain ⟨rfl, rfl⟩ := h'
      exact (h.leads _ _ _ ht).mono hq
    · simp only [set_ne _ _ e] at h'; exact h.leads _ _ _ h'
  ready := h.ready
  poisoned := h.poisoned
  stack := by
    intro t' q'' st' h'
    by_cases e : t' = t
    · subst e
      simp only [set_self, Thread.run.injEq] at h'
      obtain ⟨rfl, rfl⟩ := h'
      exact h.stack _ _ _ ht
    · simp only [set_ne _ _ e] at h'; exact h.stack _ _ _ h'
  nodup := by
    intro t' q'' st' h'
    by_cases e : t' = t
    · subst e
      simp only [set_self, Thread.run.injEq] at h'
      obtain ⟨rfl, rfl⟩ := h'
      exact h.nodup _ _ _ ht
    · simp only [set_ne _ _ e] at h'; exact h.nodup _ _ _ h'
  running := by
    intro c t' h'
    obtain ⟨q'', st', h1, h2⟩ := h.running c t' h'
    by_cases e : t' = t
    · subst e
      rw [ht] at h1
      cases h1
      exact ⟨q', st, by simp, h2⟩
    · exact ⟨q'', st', by simpa only [set_ne _ _ e] using h1, h2⟩
  fresh := h.fresh
  used := h.used

omit [DecidableEq κ] in
/-- A step that finishes a thread. -/
theorem Inv.stop {s : State κ V τ} (h : Inv init p s) {t q r} (ht : s.threads t = .run q []) (hr : Eval init q r) :
    Inv init p { s with threads := set s.threads t (.done r) } where
  done := by
    intro t' r' h'
    by_cases e : t' = t
    · subst e
      simp only [set_self, Thread.done.injEq] at h'
      subst h'
      exact h.leads _ _ _ ht _ hr
    · simp only [set_ne _ _ e] at h'; exact h.done t' r' h'
  leads := by
    intro t' q'' st' h'
    by_cases e : t' = t
    · subst e; simp at h'
    · simp only [set_ne _ _ e] at h'; exact h.leads _ _ _ h'
  ready := h.ready
  poisoned := h.poisoned
  stack := by
    intro t' q'' st' h'
    by_cases e : t' = t
    · subst e; simp at h'
    · simp only [set_ne _ _ e] at h'; exact h.stack _ _ _ h'
  nodup := by
    intro t' q'' st' h'
    by_cases e : t' = t
    · subst e; simp at h'
    · simp only [set_ne _ _ e] at h'; exact h.nodup _ _ _ h'
  running := by
    intro c t' h'
    obtain ⟨q'', st', h1, h2⟩ := h.running c t' h'
    by_cases e : t' = t
    · subst e
      rw [ht] at h1
      cases h1
      simp at h2
    · exact ⟨q'', st', by simpa only [set_ne _ _ e] using h1, h2⟩
  fresh := h.fresh
  used := h.used

/-- A step that ends the innermost initialisation of a thread. -/
theorem Inv.close {s : State κ V τ} (h : Inv init p s) {t q c k st q'} {x : Cell τ V} (ht : s.threads t = .run q ((c, k) :: st))
    (hx : (∃ v, x = .ready v ∧ Eval init q (some v)) ∨ (x = .poisoned ∧ Eval init q none))
    (hq : ∀ r, Eval init q' r → Eval init (.force c k) r) :
    Inv init p { s with cells := set s.cells c x, threads := set s.threads t (.run q' st) } := by
  have hl := h.leads _ _ _ ht
  have hc : s.cells c = .running t := h.stack _ _ _ ht (c, k) (by simp)
  have hn := h.nodup _ _ _ ht
  simp only [List.map_cons, List.nodup_cons] at hn
  have hxr : ∀ t', x ≠ .running t' := by rcases hx with ⟨v, rfl, _⟩ | ⟨rfl, _⟩ <;> simp
  have hxf : x ≠ .fresh := by rcases hx with ⟨v, rfl, _⟩ | ⟨rfl, _⟩ <;> simp
  constructor
  · intro t' r h'
    by_cases e : t' = t
    · subst e; simp at h'
    · simp only [set_ne _ _ e] at h'; exact h.done t' r h'
  · intro t' q'' st' h'
    by_cases e : t' = t
    · subst e
      simp only [set_self, Thread.run.injEq] at h'
      obtain ⟨rfl, rfl⟩ := h'
      exact hl.2.mono hq
    · simp only [set_ne _ _ e] at h'; exact h.leads _ _ _ h'
  · intro c' v h'
    by_cases e : c' = c
    · subst e
      simp only [set_self] at h'
      subst h'
      rcases hx with ⟨v', hv, hE⟩ | ⟨hv, _⟩
      · cases hv; exact hl.1 _ hE
      · cases hv
    · simp only [set_ne _ _ e] at h'; exact h.ready _ _ h'
  · intro c' h'
    by_cases e : c' = c
    · subst e
      simp only [set_self] at h'
      subst h'
      rcases hx with ⟨v', hv, hE⟩ | ⟨_, hE⟩
      · cases hv
      · exact hl.1 _ hE
    · simp only [set_ne _ _ e] at h'; exact h.poisoned _ h'
  · intro t' q'' st' h' y hy
    by_cases e : t' = t
    · subst e
      simp only [set_self, Thread.run.injEq] at h'
      obtain ⟨rfl, rfl⟩ := h'
      have : y.1 ≠ c := fun hyc => hn.1 (hyc ▸ List.mem_map_of_mem hy)
      simp only [set_ne _ _ this]
      exact h.stack _ _ _ ht y (by simp [hy])
    · simp only [set_ne _ _ e] at h'
      have hy' := h.stack _ _ _ h' y hy
      have : y.1 ≠ c := by
        intro hyc
        rw [hyc, hc] at hy'
        cases hy'
        exact e rfl
      simpa only [set_ne _ _ this] using hy'
  · intro t' q'' st' h'
    by_cases e : t' = t
    · subst e
      simp only [set_self, Thread.run.injEq] at h'
      obtain ⟨rfl, rfl⟩ := h'
      exact hn.2
    · simp only [set_ne _ _ e] at h'; exact h.nodup _ _ _ h'
  · intro c' t' h'
    by_cases ec : c' = c
    · subst ec
      simp only [set_self] at h'
      exact absurd h' (hxr t')
    · simp only [set_ne _ _ ec] at h'
      obtain ⟨q'', st', h1, h2⟩ := h.running c' t' h'
      by_cases e : t' = t
      · subst e
        rw [ht] at h1
        cases h1
        refine ⟨q', st, by simp, ?_⟩
        simpa [ec] using h2
      · exact ⟨q'', st', by simpa only [set_ne _ _ e] using h1, h2⟩
  · intro c' h'
    by_cases ec : c' = c
    · subst ec
      simp only [set_self] at h'
      exact absurd h' hxf
    · simp only [set_ne _ _ ec] at h'; exact h.fresh _ h'
  · intro c' h'
    by_cases ec : c' = c
    · subst ec
      exact h.used _ (by simp [hc])
    · simp only [set_ne _ _ ec] at h'; exact h.used _ h'

theorem Inv.step {s s' : State κ V τ} (h : Inv init p s) (hs : Step init s s') : Inv init p s' := by
  cases hs with
  | finish ht => exact h.stop ht (.ret _)
  | crash ht => exact h.stop ht .panic
  | @publish t v c k st ht =>
    have hE := (h.leads _ _ _ ht).1 _ (.ret v)
    exact h.close ht (.inl ⟨v, rfl, .ret v⟩) fun r hr => .force hE hr
  | @poison t c k st ht =>
    have hE := (h.leads _ _ _ ht).1 _ .panic
    exact h.close ht (.inr ⟨rfl, .panic⟩) fun r hr => by cases hr; exact .forcePanic hE
  | read ht hc => exact h.go ht fun r hr => .force (h.ready _ _ hc) hr
  | poisoned ht hc => exact h.go ht fun r hr => by cases hr; exact .forcePanic (h.poisoned _ hc)
  | @start t c k st ht hc =>
    have hl := h.leads _ _ _ ht
    constructor
    · intro t' r h'
      by_cases e : t' = t
      · subst e; simp at h'
      · simp only [set_ne _ _ e] at h'; exact h.done t' r h'
    · intro t' q'' st' h'
      by_cases e : t' = t
      · subst e
        simp only [set_self, Thread.run.injEq] at h'
        obtain ⟨rfl, rfl⟩ := h'
        exact ⟨fun r hr => hr, hl⟩
      · simp only [set_ne _ _ e] at h'; exact h.leads _ _ _ h'
    · intro c' v h'
      by_cases e : c' = c
      · subst e; simp at h'
      · simp only [set_ne _ _ e] at h'; exact h.ready _ _ h'
    · intro c' h'
      by_cases e : c' = c
      · subst e; simp at h'
      · simp only [set_ne _ _ e] at h'; exact h.poisoned _ h'
    · intro t' q'' st' h' y hy
      by_cases e : t' = t
      · subst e
        simp only [set_self, Thread.run.injEq] at h'
        obtain ⟨rfl, rfl⟩ := h'
        rcases List.mem_cons.mp hy with rfl | hy
        · simp
        · have hy' := h.stack _ _ _ ht y hy
          have : y.1 ≠ c := by intro hyc; rw [hyc, hc] at hy'; cases hy'
          simpa only [set_ne _ _ this] using hy'
      · simp only [set_ne _ _ e] at h'
        have hy' := h.stack _ _ _ h' y hy
        have : y.1 ≠ c := by intro hyc; rw [hyc, hc] at hy'; cases hy'
        simpa only [set_ne _ _ this] using hy'
    · intro t' q'' st' h'
      by_cases e : t' = t
      · subst e
        simp only [set_self, Thread.run.injEq] at h'
        obtain ⟨rfl, rfl⟩ := h'
        simp only [List.map_cons, List.nodup_cons]
        refine ⟨fun hm => ?_, h.nodup _ _ _ ht⟩
        obtain ⟨y, hy, hyc⟩ := List.mem_map.mp hm
        have hy' := h.stack _ _ _ ht y hy
        rw [hyc, hc] at hy'
        cases hy'
      · simp only [set_ne _ _ e] at h'; exact h.nodup _ _ _ h'
    · intro c' t' h'
      by_cases ec : c' = c
      · subst ec
        simp only [set_self, Cell.running.injEq] at h'
        subst h'
        exact ⟨_, _, set_self _ _ _, by simp⟩
      · simp only [set_ne _ _ ec] at h'
        obtain ⟨q'', st', h1, h2⟩ := h.running c' t' h'
        by_cases e : t' = t
        · subst e
          rw [ht] at h1
          cases h1
          exact ⟨_, _, set_self _ _ _, by simp [h2]⟩
        · exact ⟨q'', st', by simpa only [set_ne _ _ e] using h1, h2⟩
    · intro c' h'
      by_cases ec : c' = c
      · subst ec; simp at h'
      · simp only [set_ne _ _ ec] at h' ⊢; exact h.fresh _ h'
    · intro c' h'
      by_cases ec : c' = c
      · subst ec
        simp [h.fresh _ hc]
      · simp only [set_ne _ _ ec] at h' ⊢; exact h.used _ h'

theorem inv_run {n} {s : State κ V τ} (h : Run init n (start p) s) : Inv init p s := by
  generalize hs : start p = s0 at h
  induction h with
  | zero => subst hs; exact inv_start
  | succ _ h2 ih => exact (ih hs).step h2

/-- **C44**: under every schedule, a thread that has finished has the result it has on its own. -/
theorem C44_results {n} {s : State κ V τ} (h : Run init n (start p) s) (t : τ) (r : Option V) (hd : s.threads t = .done r) :
    Eval init (p t) r :=
  (inv_run h).done t r hd

/-- **C44**: under every schedule, no initialiser is started twice, and a static that has a value has the one its initialiser
computes on its own. -/
theorem C44_once {n} {s : State κ V τ} (h : Run init n (start p) s) (c : κ) :
    s.starts c ≤ 1 ∧ ∀ v, s.cells c = .ready v → s.starts c = 1 ∧ Eval init (init c) (some v) := by
  have hi := inv_run h
  constructor
  · by_cases e : s.cells c = .fresh
    · simp [hi.fresh c e]
    · simp [hi.used c e]
  · exact fun v hv => ⟨hi.used c (by simp [hv]), hi.ready c v hv⟩

/-! ## No deadlock -/

/-- What is being computed uses only statics of lower rank than the one it is for. -/
def Ordered (rank : κ → Nat) : Prog κ V → List (κ × (V → Prog κ V)) → Prop
  | _, [] => True
  | q, (c, k) :: st => (∀ c', Uses q c' → rank c' < rank c) ∧ Ordered rank (.force c k) st

omit [DecidableEq κ] in
theorem Ordered.mono {rank : κ → Nat} {q q' : Prog κ V} {st} (h : Ordered rank q st) (hq : ∀ c, Uses q' c → Uses q c) :
    Ordered rank q' st := by
  cases st with
  | nil => trivial
  | cons x st => exact ⟨fun c hc => h.1 c (hq c hc), h.2⟩

omit [DecidableEq κ] in
theorem Ordered.all {rank : κ → Nat} {q : Prog κ V} {st} (h : Ordered rank q st) {c' : κ} (hu : Uses q c') :
    ∀ c ∈ st.map Prod.fst, rank c' < rank c := by
  induction st generalizing q c' with
  | nil => simp
  | cons x st ih =>
    intro c hc
    simp only [List.map_cons, List.mem_cons] at hc
    rcases hc with rfl | hc
    · exact h.1 c' hu
    · have h1 := h.1 c' hu
      have h2 := ih h.2 .here c hc
      omega

theorem ordered_run {rank : κ → Nat} (hr : ∀ c c', Uses (init c) c' → rank c' < rank c) {n} {s : State κ V τ}
    (h : Run init n (start p) s) : ∀ t q st, s.threads t = .run q st → Ordered rank q st := by
  generalize hs : start p = s0 at h
  induction h with
  | zero =>
    subst hs
    intro t q st h
    simp only [start, Thread.run.injEq] at h
    obtain ⟨rfl, rfl⟩ := h
    trivial
  | succ _ h2 ih =>
    have ih := ih hs
    have key : ∀ {s : State κ V τ} {t q' st'}, (∀ t q st, s.threads t = .run q st → Ordered rank q st) → Ordered rank q' st' →
        ∀ t' q st, set s.threads t (.run q' st') t' = .run q st → Ordered rank q st := by
      intro s t q' st' hs ho t' q st h'
      by_cases e : t' = t
      · subst e
        simp only [set_self, Thread.run.injEq] at h'
        obtain ⟨rfl, rfl⟩ := h'
        exact ho
      · simp only [set_ne _ _ e] at h'; exact hs _ _ _ h'
    have keyD : ∀ {s : State κ V τ} {t r}, (∀ t q st, s.threads t = .run q st → Ordered rank q st) →
        ∀ t' q st, set s.threads t (.done r) t' = .run q st → Ordered rank q st := by
      intro s t r hs t' q st h'
      by_cases e : t' = t
      · subst e; simp at h'
      · simp only [set_ne _ _ e] at h'; exact hs _ _ _ h'
    have nothing : ∀ {q : Prog κ V} (c : κ), Uses (.panic : Prog κ V) c → Uses q c := fun c hc => by cases hc
    cases h2 with
    | finish ht => exact keyD ih
    | crash ht => exact keyD ih
    | publish ht => exact key ih ((ih _ _ _ ht).2.mono fun c hc => .later hc)
    | poison ht => exact key ih ((ih _ _ _ ht).2.mono nothing)
    | read ht hc => exact key ih ((ih _ _ _ ht).mono fun c hc => .later hc)
    | poisoned ht hc => exact key ih ((ih _ _ _ ht).mono nothing)
    | start ht hc => exact key ih ⟨fun c' hu => hr _ _ hu, ih _ _ _ ht⟩

/-- **C44**: no deadlock. As long as some thread has not finished, some thread can go on. -/
theorem C44_progress (ha : Acyclic init) {n} {s : State κ V τ} (h : Run init n (start p) s) (t : τ)
    (hd : ∀ r, s.threads t ≠ .done r) : ∃ s', Step init s s' := by
  obtain ⟨rank, hr⟩ := ha
  have hi := inv_run h
  have ho := ordered_run hr h
  have main : ∀ m c t', rank c < m → s.cells c = .running t' → ∃ s', Step init s s' := by
    intro m
    induction m with
    | zero => intro c t' hm; omega
    | succ m ih =>
      intro c t' hm hc
      obtain ⟨q, st, h1, h2⟩ := hi.running c t' hc
      cases q with
      | ret v =>
        cases st with
        | nil => simp at h2
        | cons x st => exact ⟨_, .publish h1⟩
      | panic =>
        cases st with
        | nil => simp at h2
        | cons x st => exact ⟨_, .poison h1⟩
      | force c2 k =>
        cases hc2 : s.cells c2 with
        | fresh => exact ⟨_, .start h1 hc2⟩
        | ready v => exact ⟨_, .read h1 hc2⟩
        | poisoned => exact ⟨_, .poisoned h1 hc2⟩
        | running t2 =>
          have := (ho _ _ _ h1).all .here c h2
          exact ih c2 t2 (by omega) hc2
  cases ht : s.threads t with
  | done r => exact absurd ht (hd r)
  | run q st =>
    cases q with
    | ret v =>
      cases st with
      | nil => exact ⟨_, .finish ht⟩
      | cons x st => exact ⟨_, .publish ht⟩
    | panic =>
      cases st with
      | nil => exact ⟨_, .crash ht⟩
      | cons x st => exact ⟨_, .poison ht⟩
    | force c k =>
      cases hc : s.cells c with
      | fresh => exact ⟨_, .start ht hc⟩
      | ready v => exact ⟨_, .read ht hc⟩
      | poisoned => exact ⟨_, .poisoned ht hc⟩
      | running t2 => exact main _ c t2 (Nat.lt_succ_self _) hc

/-! ## Termination -/

/-- The number of steps a computation takes when all statics have their values `val`. -/
def cost (val : κ → Option V) : Prog κ V → Nat
  | .ret _ => 1
  | .panic => 1
  | .force c k => 1 + match val c with
    | some v => cost val (k v)
    | none => 1

/-- The same for a whole stack. -/
def costs (val : κ → Option V) : List (κ × (V → Prog κ V)) → Nat
  | [] => 0
  | (c, k) :: st => (match val c with
    | some v => cost val (k v)
    | none => 1) + costs val st

/-- The steps a thread still has to do for itself. -/
def left (val : κ → Option V) : Thread κ V → Nat
  | .done _ => 0
  | .run q st => cost val q + costs val st

/-- The steps an initialiser still has to do that has not been started. -/
def leftCell (val : κ → Option V) (init : κ → Prog κ V) (c : κ) : Cell τ V → Nat
  | .fresh => cost val (init c)
  | _ => 0

omit [DecidableEq κ] in
theorem left_done (val : κ → Option V) (r) : left val (.done r) = 0 := rfl

omit [DecidableEq κ] in
theorem left_run (val : κ → Option V) (q st) : left val (.run q st) = cost val q + costs val st := rfl

omit [DecidableEq κ] [DecidableEq τ] in
theorem leftCell_fresh (val : κ → Option V) (init : κ → Prog κ V) (c) : leftCell val init c (.fresh : Cell τ V) = cost val (init c) := rfl

omit [DecidableEq κ] [DecidableEq τ] in
theorem leftCell_running (val : κ → Option V) (init : κ → Prog κ V) (c) (t : τ) : leftCell val init c (.running t : Cell τ V) = 0 := rfl

omit [DecidableEq κ] [DecidableEq τ] in
theorem leftCell_ready (val : κ → Option V) (init : κ → Prog κ V) (c v) : leftCell val init c (.ready v : Cell τ V) = 0 := rfl

omit [DecidableEq κ] [DecidableEq τ] in
theorem leftCell_poisoned (val : κ → Option V) (init : κ → Prog κ V) (c) : leftCell val init c (.poisoned : Cell τ V) = 0 := rfl

theorem sum_set {α : Type} [DecidableEq α] (l : List α) (hn : l.Nodup) (f : α → Nat) (a : α) (b : Nat) (ha : a ∈ l) :
    (l.map (set f a b)).sum + f a = (l.map f).sum + b := by
  induction l with
  | nil => simp at ha
  | cons x l ih =>
    simp only [List.nodup_cons] at hn
    simp only [List.map_cons, List.sum_cons]
    by_cases e : x = a
    · subst e
      have : l.map (set f x b) = l.map f := List.map_congr_left fun y hy => set_ne _ _ (fun h => hn.1 (h ▸ hy))
      rw [this, set_self]
      omega
    · have := ih hn.2 (by simpa [Ne.symm e] using ha)
      rw [set_ne _ _ e]
      omega

theorem sum_map_set {α β : Type} [DecidableEq α] (l : List α) (hn : l.Nodup) (g : α → β → Nat) (f : α → β) (a : α) (b : β)
    (ha : a ∈ l) : (l.map fun x => g x (set f a b x)).sum + g a (f a) = (l.map fun x => g x (f x)).sum + g a b := by
  have : (fun x => g x (set f a b x)) = set (fun x => g x (f x)) a (g a b) := by
    funext x
    by_cases e : x = a
    · subst e; simp
    · rw [set_ne _ _ e, set_ne _ _ e]
  rw [this]
  exact sum_set l hn (fun x => g x (f x)) a _ ha

theorem exists_nodup {α : Type} [DecidableEq α] (h : Finite α) : ∃ l : List α, l.Nodup ∧ ∀ a, a ∈ l := by
  obtain ⟨l, hl⟩ := h
  have : ∀ l : List α, ∃ l' : List α, l'.Nodup ∧ ∀ a ∈ l, a ∈ l' := by
    intro l
    induction l with
    | nil => exact ⟨[], by simp, by simp⟩
    | cons x l ih =>
      obtain ⟨l', h1, h2⟩ := ih
      by_cases e : x ∈ l'
      · exact ⟨l', h1, by simpa [e] using h2⟩
      · refine ⟨x :: l', by simp [e, h1], fun a ha => ?_⟩
        rcases List.mem_cons.mp ha with rfl | ha
        · simp
        · simp [h2 a ha]
  obtain ⟨l', h1, h2⟩ := this l
  exact ⟨l', h1, fun a => h2 a (hl a)⟩

/-- **C44**: with finitely many threads and statics every schedule comes to an end: there is a number of steps that no
schedule exceeds. -/
theorem C44_terminates (ha : Acyclic init) (hτ : Finite τ) (hκ : Finite κ) (p : τ → Prog κ V) :
    ∃ N, ∀ n (s : State κ V τ), Run init n (start p) s → n ≤ N := by
  obtain ⟨ts, hts, hts'⟩ := exists_nodup hτ
  obtain ⟨cs, hcs, hcs'⟩ := exists_nodup hκ
  have hv : ∀ c, ∃ r, Eval init (init c) r := fun c => C44_sequential_exists ha _
  let val : κ → Option V := fun c => Classical.choose (hv c)
  have hval : ∀ c r, Eval init (init c) r → val c = r := fun c r h =>
    C44_sequential_unique (Classical.choose_spec (hv c)) h
  let pot : State κ V τ → Nat := fun s =>
    (ts.map fun t => left val (s.threads t)).sum + (cs.map fun c => leftCell val init c (s.cells c)).sum
  have hT : ∀ (s : State κ V τ) t x, (ts.map fun t' => left val (set s.threads t x t')).sum + left val (s.threads t) =
      (ts.map fun t' => left val (s.threads t')).sum + left val x := fun s t x =>
    sum_map_set ts hts (fun _ => left val) s.threads t x (hts' t)
  have hC : ∀ (s : State κ V τ) c x, (cs.map fun c' => leftCell val init c' (set s.cells c x c')).sum + leftCell val init c (s.cells c) =
      (cs.map fun c' => leftCell val init c' (s.cells c')).sum + leftCell val init c x := fun s c x =>
    sum_map_set cs hcs (leftCell val init) s.cells c x (hcs' c)
  have hstep : ∀ s s' : State κ V τ, Inv init p s → Step init s s' → pot s' + 1 = pot s := by
    intro s s' hi hs
    simp only [pot]
    cases hs with
    | @finish t v ht =>
      have := hT s t (.done (some v))
      rw [ht] at this
      simp only [left_done, left_run, cost, costs] at this
      simp only
      omega
    | @crash t ht =>
      have := hT s t (.done none)
      rw [ht] at this
      simp only [left_done, left_run, cost, costs] at this
      simp only
      omega
    | @publish t v c k st ht =>
      have h1 := hT s t (.run (k v) st)
      have h2 := hC s c (.ready v)
      have hl := (hi.leads _ _ _ ht).1 _ (.ret v)
      rw [ht] at h1
      simp only [left_done, left_run, cost, costs, hval _ _ hl] at h1
      rw [hi.stack _ _ _ ht (c, k) (by simp)] at h2
      simp only [leftCell_fresh, leftCell_running, leftCell_ready, leftCell_poisoned] at h2
      simp only
      omega
    | @poison t c k st ht =>
      have h1 := hT s t (.run .panic st)
      have h2 := hC s c .poisoned
      have hl := (hi.leads _ _ _ ht).1 _ .panic
      rw [ht] at h1
      simp only [left_done, left_run, cost, costs, hval _ _ hl] at h1
      rw [hi.stack _ _ _ ht (c, k) (by simp)] at h2
      simp only [leftCell_fresh, leftCell_running, leftCell_ready, leftCell_poisoned] at h2
      simp only
      omega
    | @read t c k st v ht hc =>
      have h1 := hT s t (.run (k v) st)
      rw [ht] at h1
      simp only [left_done, left_run, cost, hval _ _ (hi.ready _ _ hc)] at h1
      simp only
      omega
    | @poisoned t c k st ht hc =>
      have h1 := hT s t (.run .panic st)
      rw [ht] at h1
      simp only [left_done, left_run, cost, hval _ _ (hi.poisoned _ hc)] at h1
      simp only
      omega
    | @start t c k st ht hc =>
      have h1 := hT s t (.run (init c) ((c, k) :: st))
      have h2 := hC s c (.running t)
      rw [ht] at h1
      simp only [left_done, left_run, cost, costs] at h1
      rw [hc] at h2
      simp only [leftCell_fresh, leftCell_running, leftCell_ready, leftCell_poisoned] at h2
      simp only
      omega
  refine ⟨pot (start p), fun n s h => ?_⟩
  have : pot s + n = pot (start p) := by
    generalize hs : start p = s0 at h
    induction h with
    | zero => rfl
    | succ h1 h2 ih =>
      subst hs
      have := hstep _ _ (inv_run h1) h2
      have := ih rfl
      omega
  omega

/-- **C44**: every schedule, wherever it has got to, can be continued until all threads have finished, and one that cannot
be continued has all threads finished. -/
theorem C44_completes (ha : Acyclic init) (hτ : Finite τ) (hκ : Finite κ) {n} {s : State κ V τ} (h : Run init n (start p) s) :
    ((∀ s', ¬ Step init s s') → ∀ t, ∃ r, s.threads t = .done r) ∧
    ∃ m s', Run init (n + m) (start p) s' ∧ ∀ t, ∃ r, s'.threads t = .done r := by
  have stuck : ∀ {n} {s : State κ V τ}, Run init n (start p) s → (∀ s', ¬ Step init s s') → ∀ t, ∃ r, s.threads t = .done r := by
    intro n s h hs t
    by_cases hd : ∃ r, s.threads t = .done r
    · exact hd
    · obtain ⟨s', h'⟩ := C44_progress ha h t (fun r hr => hd ⟨r, hr⟩)
      exact absurd h' (hs s')
  refine ⟨stuck h, ?_⟩
  obtain ⟨N, hN⟩ := C44_terminates ha hτ hκ p
  have main : ∀ d n (s : State κ V τ), N - n ≤ d → Run init n (start p) s →
      ∃ m s', Run init (n + m) (start p) s' ∧ ∀ t, ∃ r, s'.threads t = .done r := by
    intro d
    induction d with
    | zero =>
      intro n s hd h
      refine ⟨0, s, h, stuck h fun s' h' => ?_⟩
      have := hN _ _ (h.succ h')
      omega
    | succ d ih =>
      intro n s hd h
      by_cases hs : ∃ s', Step init s s'
      · obtain ⟨s', h'⟩ := hs
        have := hN _ _ (h.succ h')
        obtain ⟨m, s'', h1, h2⟩ := ih (n + 1) s' (by omega) (h.succ h')
        exact ⟨m + 1, s'', by rwa [show n + (m + 1) = n + 1 + m by omega], h2⟩
      · exact ⟨0, s, h, stuck h fun s' h' => hs ⟨s', h'⟩⟩
  exact main _ n s (Nat.le_refl _) h

/-! ## The statics of the crate -/

omit [DecidableEq κ] in
theorem uses_forceAll {cs : List κ} {k : List V → Prog κ V} {c : κ} (h : Uses (forceAll cs k) c) :
    c ∈ cs ∨ ∃ vs, Uses (k vs) c := by
  induction cs generalizing k with
  | nil => exact .inr ⟨[], h⟩
  | cons x cs ih =>
    cases h with
    | here => simp
    | later h =>
      rcases ih h with h | ⟨vs, h⟩
      · simp [h]
      · exact .inr ⟨_, h⟩

/-- **C44**: no initialiser of the statics of the crate needs itself, whatever the initialisers compute. -/
theorem C44_acyclic (build : Static → List V → Option V) : Acyclic (initOf build) := by
  refine ⟨fun
    | .EXTN_PATTERN | .VALID_PHONE_NUMBER => 2
    | .GEO_MOBILE_COUNTRIES | .DIALLABLE_CHAR_MAPPINGS | .ALPHA_PHONE_MAPPINGS | .ALL_PLUS_NUMBER_GROUPING_SYMBOLS
    | .VALID_ALPHA | .EXTN_PATTERNS_FOR_PARSING | .EXTN_PATTERNS_FOR_MATCHING => 1
    | _ => 0, fun c c' h => ?_⟩
  rcases uses_forceAll h with h | ⟨vs, h⟩
  · cases c <;> simp only [deps, List.mem_cons, List.not_mem_nil, or_false] at h <;>
      first
      | exact h.elim
      | (subst h; decide)
      | (rcases h with rfl | rfl <;> decide)
  · cases hb : build c vs <;> simp only [hb] at h <;> cases h

/-- There are finitely many statics. -/
theorem finite_static : Finite Static :=
  ⟨[.DEFAULT, .DEFAULT_IDD, .MOBILE_TOKEN_MAPPINGS, .GEO_MOBILE_COUNTRIES_WITHOUT_MOBILE_AREA_CODES, .GEO_MOBILE_COUNTRIES,
    .ASCII_MAPPINGS, .DIALLABLE_CHAR_MAPPINGS, .ALPHA_MAPPINGS, .ALPHA_PHONE_MAPPINGS, .ALL_PLUS_NUMBER_GROUPING_SYMBOLS,
    .UNIQUE_INTERNATIONAL_PREFIX, .VALID_ALPHA, .PLUS_CHARS_PATTERN, .SEPARATOR_PATTERN, .CAPTURING_DIGIT, .VALID_START_CHAR,
    .SECOND_NUMBER_START, .UNWANTED_END_CHARS, .VALID_ALPHA_PHONE, .CAPTURING_EXTN_DIGITS, .EXTN_PATTERNS_FOR_PARSING,
    .EXTN_PATTERNS_FOR_MATCHING, .EXTN_PATTERN, .VALID_PHONE_NUMBER, .NON_DIGITS, .FIRST_GROUP, .FIRST_GROUP_ONLY_PREFIX],
   fun c => by cases c <;> decide⟩

/-- Two threads use the extension pattern at the same time. The first starts its initialiser, and with it that of a static
below; the second has to wait; in the end both have the same value, which has been built once. -/
example : let build : Static → List Nat → Option Nat := fun _ vs => some (vs.sum + 1)
    let p : Bool → Prog Static Nat := fun b => .force .EXTN_PATTERN fun v => .ret (if b then v else v + 10)
    (∃ s, Run (initOf build) 1 (start p) s ∧ s.cells .EXTN_PATTERN = .running true ∧
      s.threads false = .run (.force .EXTN_PATTERN fun v => .ret (v + 10)) []) ∧
    ∃ n s, Run (initOf build) n (start p) s ∧ s.threads true = .done (some 3) ∧ s.threads false = .done (some 13) := by
  intro build p
  refine ⟨⟨_, .succ (.zero _) (.start (t := true) rfl rfl), rfl, rfl⟩, ?_⟩
  obtain ⟨m, s, h1, h2⟩ := (C44_completes (C44_acyclic build) ⟨[true, false], by decide⟩ finite_static (.zero (start p))).2
  obtain ⟨r, hr⟩ := h2 true
  obtain ⟨r', hr'⟩ := h2 false
  have e3 : Eval (initOf build) (initOf build .CAPTURING_EXTN_DIGITS) (some 1) := .ret _
  have e2 : Eval (initOf build) (initOf build .EXTN_PATTERNS_FOR_PARSING) (some 2) := .force e3 (.ret _)
  have e1 : Eval (initOf build) (initOf build .EXTN_PATTERN) (some 3) := .force e2 (.ret _)
  have a : r = some 3 := C44_sequential_unique (C44_results h1 true r hr) (.force e1 (.ret _))
  have b : r' = some 13 := C44_sequential_unique (C44_results h1 false r' hr') (.force e1 (.ret _))
  exact ⟨_, s, h1, a ▸ hr, b ▸ hr'⟩

end Phone.Lazy
