import Verif.Model.Unwind
import Verif.Spec.Source
import Verif.Spec.Safe

/-
Notions for stating what panics leave behind. Definitions only.
-/

namespace Chomp

/-- A data source which does not panic. -/
@[reducible] def UDataSource.calm [DataSource S I] : UDataSource S I where
  read s k := (⟨(DataSource.read s k).1.writes, some (DataSource.read s k).1.result⟩, (DataSource.read s k).2)

/-- The data source which returns the error `e` where the given one panics. -/
@[reducible] def UDataSource.failing [UDataSource S I] (e : IoError) : DataSource S I where
  read s k := (⟨(UDataSource.read s k).1.writes, (UDataSource.read s k).1.result.getD (.error e)⟩,
    (UDataSource.read s k).2)

/-- The items handed over by a call of `read`; none if it panics. -/
def UReadOut.items (o : UReadOut I) : List I :=
  match o.result with
  | some (.ok n) => (o.writes.take n).filterMap id
  | _ => []

/-- The contract of `DataSource`, see `HonestSource`. It may be broken off by a panic at any time. -/
class UHonest (S : Type) (I : outParam Type) [UDataSource S I] : Prop where
  honest : ∀ (s : S) (k n : Nat), (UDataSource.read s k).1.result = some (.ok n) →
    n ≤ k ∧ (UDataSource.read s k).1.items.length = n

/-- `UReads s xs s'`: some calls of `read` turn the source `s` into `s'` and hand over `xs`. -/
inductive UReads [UDataSource S I] : S → List I → S → Prop
  | done {s} : UReads s [] s
  | step {s xs s'} (k : Nat) : UReads (UDataSource.read s k).2 xs s' →
      UReads s ((UDataSource.read s k).1.items ++ xs) s'

/-- What the rest of the model says about code: a panic is the end. -/
def forget : Res (Option α × St) → Res (α × St)
  | .ok (some a, s) => .ok (a, s)
  | .ok (none, _) => .panic
  | .panic => .panic
  | .ub => .ub
  | .div => .div

/-- The parser, if a panic is the end. -/
def UParser.forget (f : UParser σ I T E) : Parser σ I T E := fun i w => Chomp.forget (f i w)

namespace Spec

/-- The other way of writing down a result and two states. -/
def regroup : Res ((α × β) × γ) → Res (α × β × γ)
  | .ok ((a, b), c) => .ok (a, b, c)
  | .panic => .panic
  | .ub => .ub
  | .div => .div

section
variable {S B I : Type} [UDataSource S I] [Buffer B I] [LawfulBuffer B I]

/-- Nothing but reading more has happened between `s` and `s'`: the contents are still there, followed
by what the data source has handed over in the meantime. -/
def Intact (s s' : Source S B) : Prop :=
  Usable s' ∧ s'.request = s.request ∧ s'.state = s.state ∧
    ∃ xs, UReads s.source xs s'.source ∧ held s' = held s ++ xs

end

/-- A call of a safe method of `Source`, as `SourceCall`, with a parser which may panic. -/
inductive UCall (σ I : Type) : Type 1 where
  | parse {T E : Type} (f : UParser σ I T E)
  | fill
  | len
  | isEmpty
  | buffer
  | reset
  | setAutofill (v : Bool)
  | read (k : Nat)
  | fillBuf
  | consume (n : Nat)

section
variable {S B I : Type} [UDataSource S I] [Buffer B I] [UBuffer B I]

/-- Make the call and catch a panic. What is returned is not of interest. -/
def UCall.run (chk : Bool) (c : UCall σ I) (x : Source S B × σ) : Res (Source S B × σ) :=
  match c with
  | .parse f => state (Source.parseU chk f x)
  | .fill => pair (state (Source.fillU chk x.1))
  | .len => look (x.1.len chk)
  | .isEmpty => look (x.1.isEmpty chk)
  | .buffer => look x.1.bufferSlice
  | .reset => .ok (x.1.reset, x.2)
  | .setAutofill v => .ok (x.1.setAutofill v, x.2)
  | .read k => pair (state (Source.readU chk k x.1))
  | .fillBuf => pair (state (Source.fillBufU chk x.1))
  | .consume n => pair (state (Source.consumeU chk n x.1))
where
  /-- the state left, by returning or by panicking -/
  state {α St : Type} (r : Res (Option α × St)) : Res St := do
    let (_, s) ← r
    .ok s
  pair (r : Res (Source S B)) : Res (Source S B × σ) := do
    let s ← r
    .ok (s, x.2)
  look {α : Type} (r : Res α) : Res (Source S B × σ) :=
    match r with
    | .ok _ => .ok x
    | .panic => .ok x
    | .ub => .ub
    | .div => .div

/-- Calls one after the other, catching all panics. -/
def runCaught (chk : Bool) : List (UCall σ I) → Source S B × σ → Res (Source S B × σ)
  | [], x => .ok x
  | c :: cs, x => do
    let x ← c.run chk x
    runCaught chk cs x

/-- A parser which returns or panics; a slice to read into which fits into memory. -/
def UCall.Sound : UCall σ I → Prop
  | .parse f => ∀ i w, ∃ x, f i w = .ok x
  | .read k => k ≤ isizeMax
  | _ => True

end

/-! ### Histories -/

/-- `f` is `p`, except that it may panic. -/
def Partly (f : UParser σ I T E) (p : Parser σ I T E) : Prop :=
  ∀ i w r w', f i w = .ok (some r, w') → p i w = .ok (r, w')

section
variable {S B I : Type} [UDataSource S I] [Buffer B I] [UBuffer B I]

/-- The state in which `parse` runs the parser, see `autofilled`. -/
def refilled (chk : Bool) (s : Source S B) : Source S B :=
  if s.state.incomplete && s.state.automaticFill then
    match Source.fillU chk s with
    | .ok (_, s1) => s1
    | _ => s
  else s

variable [LawfulBuffer B I]

/-- The operations on a `Source`, returning or panicking, and the items they hand out, as `SourceStep`.
What panics hands out nothing. -/
inductive UStep (chk : Bool) : Source S B → σ → List I → Source S B → σ → Prop
  | parse {T E : Type} {s s' : Source S B} {w w' : σ} (p : Parser σ I T E) (f : UParser σ I T E)
      {r : Except (StreamError I E) T} {x : List I} : Built everything p → Partly f p →
      Source.parseU chk f (s, w) = .ok (some r, s', w') → held (refilled chk s) = x ++ held s' →
      UStep chk s w x s' w'
  | parsePanics {T E : Type} {s s' : Source S B} {w w' : σ} (f : UParser σ I T E) :
      Source.parseU chk f (s, w) = .ok (none, s', w') → UStep chk s w [] s' w'
  | fill {s s' : Source S B} {w : σ} {r} : Source.fillU chk s = .ok (r, s') → UStep chk s w [] s' w
  | read {s s' : Source S B} {w : σ} {xs : List I} (k : Nat) :
      Source.readU chk k s = .ok (some (.ok xs), s') → UStep chk s w xs s' w
  | readNothing {s s' : Source S B} {w : σ} {r : Option (Except IoError (List I))} (k : Nat) :
      Source.readU chk k s = .ok (r, s') → (∀ xs, r ≠ some (.ok xs)) → UStep chk s w [] s' w
  | fillBuf {s s' : Source S B} {w : σ} {r : Option (Except IoError (List I))} :
      Source.fillBufU chk s = .ok (r, s') → UStep chk s w [] s' w
  | consume {s s' : Source S B} {w : σ} {r} (k : Nat) : k ≤ (held s).length →
      Source.consumeU chk k s = .ok (r, s') → UStep chk s w ((held s).take k) s' w
  | consumePanics {s s' : Source S B} {w : σ} (k : Nat) :
      Source.consumeU chk k s = .ok (none, s') → UStep chk s w [] s' w
  | reset {s : Source S B} {w : σ} : UStep chk s w [] s.reset w
  | setAutofill {s : Source S B} {w : σ} (v : Bool) : UStep chk s w [] (s.setAutofill v) w

/-- Any number of operations, panics being caught, and all the items they hand out. -/
inductive UHistory (chk : Bool) : Source S B → σ → List I → Source S B → σ → Prop
  | done {s w} : UHistory chk s w [] s w
  | step {s w x s1 w1 y s2 w2} : UStep chk s w x s1 w1 → UHistory chk s1 w1 y s2 w2 →
      UHistory chk s w (x ++ y) s2 w2

end

end Spec

end Chomp
