import Verif.Props.Lazy
import Verif.Props.Builtin
/-
The shipped database, shared by threads (C44).
-/
namespace Phone.Builtin
open Lazy

variable [UnicodeTables]

/-- What the statics and the threads hold: the database, a constant of src/consts.rs (the model has these as definitions, so
it does not matter which value), or the answers a thread has got. -/
inductive Val (A : Type) where
  | database (d : Database)
  | constant
  | answers (l : List A)

/-- What the initialisers compute, when building the database gives `made`: `made.unwrap()`, src/metadata/database.rs:31-32,
and the constants of src/consts.rs:53-385. -/
def buildWith {ε : Type} (made : Outcome ε Database) (A : Type) : Static → List (Val A) → Option (Val A)
  | .DEFAULT, _ => match made with
    | .ok d => some (.database d)
    | _ => none
  | _, _ => some .constant

/-- The same for the shipped territories: `Database::from(postcard::from_bytes(DATABASE).unwrap()).unwrap()`,
src/metadata/database.rs:31-32. -/
noncomputable def build (A : Type) : Static → List (Val A) → Option (Val A) :=
  buildWith (Database.from compile Data.territories) A

/-- A thread that makes calls of the library one after the other, each depending on the answers before. A call is a function
of the database (`none`: it panics); `others` are the statics it uses besides. -/
inductive Client (A : Type) where
  | stop
  | call (others : List Static) (f : Database → Option A) (k : A → Client A)

/-- The thread as a program: each call dereferences the database and the other statics and then computes its answer from the
database, e.g. `parse`, src/parser/mod.rs:33-38. -/
def Client.prog {A : Type} : Client A → List A → Prog Static (Val A)
  | .stop, acc => .ret (.answers acc.reverse)
  | .call others f k, acc => .force .DEFAULT fun v => forceAll others fun _ => match v with
    | .database d => (match f d with
      | some a => (k a).prog (a :: acc)
      | none => .panic)
    | _ => .panic

/-- The answers a thread gets when it has the database for itself; `none` if a call panics. -/
def Client.alone {A : Type} (d : Database) : Client A → Option (List A)
  | .stop => some []
  | .call _ f k => (f d).bind fun a => ((k a).alone d).map (a :: ·)

/-- A thread that parses the given texts. -/
noncomputable def parses : List (List Static × Option Id × Str) → Client (Outcome ParseErr PhoneNumber)
  | [] => .stop
  | (others, country, s) :: rest =>
    .call others (fun d => match parseWith d country s with
      | Outcome.panic _ => none
      | o => some o) fun _ => parses rest

omit [UnicodeTables] in
theorem eval_init {ε : Type} (d : Database) (A : Type) (c : Static) :
    Eval (initOf (buildWith (.ok d : Outcome ε Database) A)) (initOf (buildWith (.ok d : Outcome ε Database) A) c) (some (if c = .DEFAULT then .database d else .constant)) := by
  have hc : ∀ c, deps c = [] → c ≠ .DEFAULT → Eval (initOf (buildWith (.ok d : Outcome ε Database) A)) (initOf (buildWith (.ok d : Outcome ε Database) A) c) (some .constant) := by
    intro c hd hc
    rw [initOf, hd, forceAll]
    cases c <;> first | exact .ret _ | exact absurd rfl hc
  cases c
  case DEFAULT =>
    rw [initOf]
    simp only [deps, forceAll, buildWith, if_true]
    exact .ret _
  case EXTN_PATTERN => exact .force (.force (hc .CAPTURING_EXTN_DIGITS rfl nofun) (.ret _)) (.ret _)
  case VALID_PHONE_NUMBER => exact .force (.force (hc .CAPTURING_EXTN_DIGITS rfl nofun) (.ret _)) (.ret _)
  case EXTN_PATTERNS_FOR_PARSING => exact .force (hc _ rfl nofun) (.ret _)
  case EXTN_PATTERNS_FOR_MATCHING => exact .force (hc _ rfl nofun) (.ret _)
  case GEO_MOBILE_COUNTRIES => exact .force (hc _ rfl nofun) (.ret _)
  case DIALLABLE_CHAR_MAPPINGS => exact .force (hc _ rfl nofun) (.ret _)
  case VALID_ALPHA => exact .force (hc _ rfl nofun) (.ret _)
  case ALPHA_PHONE_MAPPINGS => exact .force (hc _ rfl nofun) (.force (hc _ rfl nofun) (.ret _))
  case ALL_PLUS_NUMBER_GROUPING_SYMBOLS => exact .force (hc _ rfl nofun) (.force (hc _ rfl nofun) (.ret _))
  all_goals exact hc _ rfl nofun

omit [UnicodeTables] in
theorem eval_forceAll {ε : Type} (d : Database) {A : Type} (cs : List Static) {k : List (Val A) → Prog Static (Val A)} {r}
    (h : ∀ vs, Eval (initOf (buildWith (.ok d : Outcome ε Database) A)) (k vs) r) : Eval (initOf (buildWith (.ok d : Outcome ε Database) A)) (forceAll cs k) r := by
  induction cs generalizing k with
  | nil => exact h []
  | cons c cs ih => exact .force (eval_init d A c) (ih fun vs => h _)

omit [UnicodeTables] in
theorem eval_client {ε : Type} (d : Database) {A : Type} (c : Client A) : ∀ acc,
    Eval (initOf (buildWith (.ok d : Outcome ε Database) A)) (c.prog acc) ((c.alone d).map fun l => .answers (acc.reverse ++ l)) := by
  induction c with
  | stop => intro acc; simpa [Client.prog, Client.alone] using Eval.ret _
  | call others f k ih =>
    intro acc
    rw [Client.prog]
    refine .force (eval_init d A .DEFAULT) ?_
    refine eval_forceAll d others fun vs => ?_
    simp only [if_true, Client.alone]
    cases hf : f d with
    | none => exact .panic
    | some a =>
      have := ih a (a :: acc)
      simpa [Option.map_map, Function.comp_def] using this

omit [UnicodeTables] in
theorem build_eq (A : Type) : build A = buildWith (.ok db : Outcome LoadErr Database) A := by
  rw [build, from_builtin]

omit [UnicodeTables] in
/-- **C44** for the shipped database: any number of threads make any calls of the library. Under every schedule, a thread that
has finished has the answers it gets when it is alone, and the database has been built at most once. -/
theorem C44_calls {A τ : Type} [DecidableEq τ] (clients : τ → Client A) {n} {s : State Static (Val A) τ}
    (h : Run (initOf (build A)) n (start fun t => (clients t).prog []) s) :
    s.starts .DEFAULT ≤ 1 ∧ ∀ t r, s.threads t = .done r → r = ((clients t).alone db).map .answers := by
  refine ⟨(C44_once h _).1, fun t r hr => ?_⟩
  rw [build_eq] at h
  have := C44_sequential_unique (C44_results h t r hr) (eval_client db (clients t) [])
  simpa using this

theorem alone_parses (inputs : List (List Static × Option Id × Str)) :
    (parses inputs).alone db = some (inputs.map fun i => parse i.2.1 i.2.2) := by
  induction inputs with
  | nil => rfl
  | cons i rest ih =>
    obtain ⟨others, country, s⟩ := i
    simp only [parses, Client.alone, ih, List.map_cons, Option.map_some]
    have h := C05_parse_builtin country s
    unfold parse at h ⊢
    cases hp : parseWith db country s with
    | panic m => rw [hp] at h; exact absurd trivial h
    | ok x => simp
    | err e => simp

/-- **C44**: threads that parse numbers at the same time all finish, without panicking, with the numbers they get one by one:
`parses_concurrently_from_many_threads` in tests/concurrency.rs:24-52 for all inputs, all numbers of threads and all
schedules. -/
theorem C44_parse {τ : Type} [DecidableEq τ] (hτ : Finite τ) (inputs : τ → List (List Static × Option Id × Str)) :
    (∃ N, ∀ n (s : State Static (Val (Outcome ParseErr PhoneNumber)) τ),
      Run (initOf (build _)) n (start fun t => (parses (inputs t)).prog []) s → n ≤ N) ∧
    ∀ n (s : State Static (Val (Outcome ParseErr PhoneNumber)) τ),
      Run (initOf (build _)) n (start fun t => (parses (inputs t)).prog []) s → (∀ s', ¬ Lazy.Step (initOf (build _)) s s') →
      ∀ t, s.threads t = .done (some (.answers ((inputs t).map fun i => parse i.2.1 i.2.2))) := by
  refine ⟨C44_terminates (C44_acyclic _) hτ finite_static _, fun n s h hs t => ?_⟩
  obtain ⟨r, hr⟩ := (C44_completes (C44_acyclic _) hτ finite_static h).1 hs t
  rw [hr, (C44_calls (fun t => parses (inputs t)) h).2 t r hr, alone_parses]
  rfl

/-- The situation of the repository's test: 16 threads, each parsing the same texts again and again. -/
example : ∃ (n : Nat) (s : State Static (Val (Outcome ParseErr PhoneNumber)) (Fin 16)),
    let texts := List.replicate 200 ([Static.EXTN_PATTERN, .VALID_START_CHAR], some Id.GB, str% "+44 7912345678")
    Run (initOf (build _)) n (start fun _ => (parses texts).prog []) s ∧
    ∀ t, s.threads t = .done (some (.answers (List.replicate 200 (parse (some .GB) (str% "+44 7912345678"))))) := by
  let texts := List.replicate 200 ([Static.EXTN_PATTERN, .VALID_START_CHAR], some Id.GB, str% "+44 7912345678")
  have hf : Finite (Fin 16) := ⟨List.finRange 16, List.mem_finRange⟩
  obtain ⟨m, s, h, hd⟩ := (C44_completes (C44_acyclic (build (Outcome ParseErr PhoneNumber))) hf finite_static
    (.zero (start fun _ : Fin 16 => (parses texts).prog []))).2
  refine ⟨_, s, h, fun t => ?_⟩
  obtain ⟨r, hr⟩ := hd t
  rw [hr, (C44_calls (fun _ => parses texts) h).2 t r hr, alone_parses, Option.map_some, List.map_replicate]

end Phone.Builtin
