import Verif.Model.Convert

/-
Implementations of `FromIterator` with effects, which the collecting functions of /repo/src/combinators run
(src/combinators/macros.rs:5-36 and 105-140). `Consumer` of Verif/Model/Combinators.lean has no effects.
-/

namespace Chomp

/-- What a collection does next: return, panic, call `next`, call `size_hint`, or something to the captured state
(which may also panic or not return). -/
inductive Demand (σ U T S : Type) where
  | done (t : T)
  | panic
  | next (k : Option U → S)
  | hint (k : Nat × Option Nat → S)
  | act (g : M σ S)

/-- A `FromIterator` implementation as a state machine. -/
structure Machine (σ U T : Type) where
  State : Type
  start : State
  ask : State → Demand σ U T State

/-- The code of such a collection. -/
def Machine.driver (c : Machine σ U T) : Driver σ U T := fun It next hint it =>
  loop (fun (s : c.State × It) =>
    match c.ask s.1 with
    | .done t => pure (.inr (t, s.2))
    | .panic => M.panic
    | .next k => do
      let (o, it) ← next s.2
      pure (.inl (k o, it))
    | .hint k => pure (.inl (k (hint s.2), s.2))
    | .act g => do
      let c ← g
      pure (.inl (c, s.2))) (c.start, it)

/-- A collection without effects. -/
def Consumer.machine (c : Consumer U T) : Machine σ U T where
  State := c.State
  start := c.start
  ask s := match c.ask s with
    | .done t => .done t
    | .panic => .panic
    | .next k => .next k
    | .hint k => .hint k

/-- The collection inside of a function with a local variable, which it does not see. -/
def Machine.inner (c : Machine σ U T) : Machine (σ × τ) U T where
  State := c.State
  start := c.start
  ask s := match c.ask s with
    | .done t => .done t
    | .panic => .panic
    | .next k => .next k
    | .hint k => .hint k
    | .act g => .act (Comb.withLocal g)

section
variable [Build]

/-- `sep_by`, src/combinators/mod.rs:182-203. -/
def Machine.sepBy (conv : N → M σ E) (c : Machine σ U T) (p : Parser σ I U E) (sep : Parser σ I V N) :
    Parser σ I T E := fun i =>
  Comb.newLocal false (Bounded.manyWith .full c.inner.driver (Converted.sepParser conv p sep) i)

/-- `sep_by1`, src/combinators/mod.rs:223-244. -/
def Machine.sepBy1 (conv : N → M σ E) (c : Machine σ U T) (p : Parser σ I U E) (sep : Parser σ I V N) :
    Parser σ I T E := fun i =>
  Comb.newLocal false (Bounded.manyWith (.from_ 1) c.inner.driver (Converted.sepParser conv p sep) i)

end

/-- With or without effects, such a collection does the same. -/
theorem Consumer.machine_driver (c : Consumer U T) : (c.machine.driver : Driver σ U T) = c.driver := by
  funext It next hint it
  unfold Machine.driver Consumer.driver
  congr 1
  funext s
  dsimp only [Consumer.machine]
  cases c.ask s.1 <;> rfl

namespace Machine
variable {c : Machine σ U T}

theorem inner_done {s : c.State} {t : T} : (c.inner (τ := τ)).ask s = .done t ↔ c.ask s = .done t := by
  show (match c.ask s with
    | .done t => .done t
    | .panic => .panic
    | .next k => .next k
    | .hint k => .hint k
    | .act g => .act (Comb.withLocal g) : Demand (σ × τ) U T c.State) = .done t ↔ _
  cases c.ask s <;> constructor <;> intro h <;> cases h <;> rfl

theorem inner_panic {s : c.State} : (c.inner (τ := τ)).ask s = .panic ↔ c.ask s = .panic := by
  show (match c.ask s with
    | .done t => .done t
    | .panic => .panic
    | .next k => .next k
    | .hint k => .hint k
    | .act g => .act (Comb.withLocal g) : Demand (σ × τ) U T c.State) = .panic ↔ _
  cases c.ask s <;> constructor <;> intro h <;> cases h <;> rfl

theorem inner_next {s : c.State} {k : Option U → c.State} :
    (c.inner (τ := τ)).ask s = .next k ↔ c.ask s = .next k := by
  show (match c.ask s with
    | .done t => .done t
    | .panic => .panic
    | .next k => .next k
    | .hint k => .hint k
    | .act g => .act (Comb.withLocal g) : Demand (σ × τ) U T c.State) = .next k ↔ _
  cases c.ask s <;> constructor <;> intro h <;> cases h <;> rfl

theorem inner_hint {s : c.State} {k : Nat × Option Nat → c.State} :
    (c.inner (τ := τ)).ask s = .hint k ↔ c.ask s = .hint k := by
  show (match c.ask s with
    | .done t => .done t
    | .panic => .panic
    | .next k => .next k
    | .hint k => .hint k
    | .act g => .act (Comb.withLocal g) : Demand (σ × τ) U T c.State) = .hint k ↔ _
  cases c.ask s <;> constructor <;> intro h <;> cases h <;> rfl

theorem inner_act {s : c.State} {g : M (σ × τ) c.State} :
    (c.inner (τ := τ)).ask s = .act g ↔ ∃ g', c.ask s = .act g' ∧ g = Comb.withLocal g' := by
  show (match c.ask s with
    | .done t => .done t
    | .panic => .panic
    | .next k => .next k
    | .hint k => .hint k
    | .act g => .act (Comb.withLocal g) : Demand (σ × τ) U T c.State) = .act g ↔ _
  cases c.ask s <;> simp [eq_comm]

end Machine

theorem Consumer.machine_inner (c : Consumer U T) : (c.machine (σ := σ)).inner = c.machine (σ := σ × τ) := by
  unfold Consumer.machine Machine.inner
  congr 1
  funext s
  dsimp only
  cases c.ask s <;> rfl

end Chomp
