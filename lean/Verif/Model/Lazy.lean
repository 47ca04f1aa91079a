/-
Lazily initialised statics shared by threads (`once_cell::sync::Lazy`), as a transition system.
-/
namespace Phone.Lazy

/-- A computation that may dereference lazily initialised statics: it returns a value, panics, or dereferences the static
`c` and goes on with its value. A call of the library, e.g. `parse` in src/parser/mod.rs:30-38, dereferences `DATABASE`
(src/metadata/database.rs:31-32) and some of the statics in src/consts.rs and computes a function of their values; nothing
else is shared. -/
inductive Prog (κ V : Type) where
  | ret (v : V)
  | panic
  | force (c : κ) (k : V → Prog κ V)

/-- What a static holds: nothing yet; its initialiser is being run by the thread `t`; its value; nothing for ever, because
the initialiser panicked (`Lazy::force` then panics with "Lazy instance has previously been poisoned"). -/
inductive Cell (τ V : Type) where
  | fresh
  | running (t : τ)
  | ready (v : V)
  | poisoned

/-- A thread: finished with a value or (`none`) with a panic; or computing `p`. The stack holds the statics this thread is
initialising, innermost first, each with what is to be done with its value. -/
inductive Thread (κ V : Type) where
  | done (r : Option V)
  | run (p : Prog κ V) (stack : List (κ × (V → Prog κ V)))

/-- The state: the statics, the threads, and how often each initialiser has been started. -/
structure State (κ V τ : Type) where
  cells : κ → Cell τ V
  threads : τ → Thread κ V
  starts : κ → Nat

/-- Change a function at one place. -/
def set {α β : Type} [DecidableEq α] (f : α → β) (a : α) (b : β) : α → β := fun x => if x = a then b else f x

/-- One step of the thread `t` (`once_cell::sync::Lazy::force`, of which DEFAULT in src/metadata/database.rs:31-32 and the
statics of src/consts.rs:53-385 are instances). `init` gives the initialisers. A thread that needs a static which another
thread is initialising has no step: it waits. A panic of an initialiser poisons the static and goes on to the thread that
asked for it. Simplification: a step is atomic, that is, the synchronisation inside `once_cell` (one compare-and-swap decides who runs
the initialiser, and the value is published before the static is seen as ready) is assumed. -/
inductive Step {κ V τ : Type} [DecidableEq κ] [DecidableEq τ] (init : κ → Prog κ V) : State κ V τ → State κ V τ → Prop where
  | finish {s : State κ V τ} {t v} : s.threads t = .run (.ret v) [] →
      Step init s { s with threads := set s.threads t (.done (some v)) }
  | crash {s : State κ V τ} {t} : s.threads t = .run .panic [] →
      Step init s { s with threads := set s.threads t (.done none) }
  | publish {s : State κ V τ} {t v c k st} : s.threads t = .run (.ret v) ((c, k) :: st) →
      Step init s { s with cells := set s.cells c (.ready v), threads := set s.threads t (.run (k v) st) }
  | poison {s : State κ V τ} {t c k st} : s.threads t = .run .panic ((c, k) :: st) →
      Step init s { s with cells := set s.cells c .poisoned, threads := set s.threads t (.run .panic st) }
  | read {s : State κ V τ} {t c k st v} : s.threads t = .run (.force c k) st → s.cells c = .ready v →
      Step init s { s with threads := set s.threads t (.run (k v) st) }
  | poisoned {s : State κ V τ} {t c k st} : s.threads t = .run (.force c k) st → s.cells c = .poisoned →
      Step init s { s with threads := set s.threads t (.run .panic st) }
  | start {s : State κ V τ} {t c k st} : s.threads t = .run (.force c k) st → s.cells c = .fresh →
      Step init s { cells := set s.cells c (.running t), threads := set s.threads t (.run (init c) ((c, k) :: st)),
                    starts := set s.starts c (s.starts c + 1) }

/-- The state in which nothing has been initialised and each thread `t` is about to run `p t`. -/
def start {κ V τ : Type} (p : τ → Prog κ V) : State κ V τ where
  cells := fun _ => .fresh
  threads := fun t => .run (p t) []
  starts := fun _ => 0

/-- `n` steps of any threads, in any order. -/
inductive Run {κ V τ : Type} [DecidableEq κ] [DecidableEq τ] (init : κ → Prog κ V) : Nat → State κ V τ → State κ V τ → Prop where
  | zero (s) : Run init 0 s s
  | succ {n s s' s''} : Run init n s s' → Step init s' s'' → Run init (n + 1) s s''

/-- The lazily initialised statics of the crate: src/metadata/database.rs:31-32 and src/consts.rs:53-385. -/
inductive Static where
  | DEFAULT | DEFAULT_IDD | MOBILE_TOKEN_MAPPINGS | GEO_MOBILE_COUNTRIES_WITHOUT_MOBILE_AREA_CODES | GEO_MOBILE_COUNTRIES
  | ASCII_MAPPINGS | DIALLABLE_CHAR_MAPPINGS | ALPHA_MAPPINGS | ALPHA_PHONE_MAPPINGS | ALL_PLUS_NUMBER_GROUPING_SYMBOLS
  | UNIQUE_INTERNATIONAL_PREFIX | VALID_ALPHA | PLUS_CHARS_PATTERN | SEPARATOR_PATTERN | CAPTURING_DIGIT | VALID_START_CHAR
  | SECOND_NUMBER_START | UNWANTED_END_CHARS | VALID_ALPHA_PHONE | CAPTURING_EXTN_DIGITS | EXTN_PATTERNS_FOR_PARSING
  | EXTN_PATTERNS_FOR_MATCHING | EXTN_PATTERN | VALID_PHONE_NUMBER | NON_DIGITS | FIRST_GROUP | FIRST_GROUP_ONLY_PREFIX
  deriving DecidableEq

open Static in
/-- The statics that the initialiser of a static dereferences, in order: src/consts.rs:90 (GEO_MOBILE_COUNTRIES), 116
(DIALLABLE_CHAR_MAPPINGS), 186-187 (ALPHA_PHONE_MAPPINGS), 197-202 (ALL_PLUS_NUMBER_GROUPING_SYMBOLS), 255 (VALID_ALPHA),
328 and 343 (EXTN_PATTERNS_…), 352 (EXTN_PATTERN) and 362 (VALID_PHONE_NUMBER); all others use none, DEFAULT among them
(src/metadata/database.rs:31-32). -/
def deps : Static → List Static
  | GEO_MOBILE_COUNTRIES => [GEO_MOBILE_COUNTRIES_WITHOUT_MOBILE_AREA_CODES]
  | DIALLABLE_CHAR_MAPPINGS => [ASCII_MAPPINGS]
  | ALPHA_PHONE_MAPPINGS => [ASCII_MAPPINGS, ALPHA_MAPPINGS]
  | ALL_PLUS_NUMBER_GROUPING_SYMBOLS => [ALPHA_MAPPINGS, ASCII_MAPPINGS]
  | VALID_ALPHA => [ALPHA_MAPPINGS]
  | EXTN_PATTERNS_FOR_PARSING => [CAPTURING_EXTN_DIGITS]
  | EXTN_PATTERNS_FOR_MATCHING => [CAPTURING_EXTN_DIGITS]
  | EXTN_PATTERN => [EXTN_PATTERNS_FOR_PARSING]
  | VALID_PHONE_NUMBER => [EXTN_PATTERNS_FOR_PARSING]
  | _ => []

/-- Dereference the statics `cs` one after the other and go on with their values. -/
def forceAll {κ V : Type} : List κ → (List V → Prog κ V) → Prog κ V
  | [], k => k []
  | c :: cs, k => .force c fun v => forceAll cs fun vs => k (v :: vs)

/-- The initialisers: dereference what they use, then compute the value from that, or panic (`unwrap`).
Simplification: what they compute is the parameter `build`. -/
def initOf {V : Type} (build : Static → List V → Option V) (c : Static) : Prog Static V :=
  forceAll (deps c) fun vs => match build c vs with
    | some v => .ret v
    | none => .panic

end Phone.Lazy
