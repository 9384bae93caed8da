import Verif.Model.Buffer

/-
What is asked of a data source, and what a buffer does, abstractly: it is a queue with some room
behind it. Definitions only.
-/

namespace Chomp

/-- The items handed over by a call of `read`: as many of the cells written as it claims. -/
def ReadOut.items (o : ReadOut I) : List I :=
  match o.result with
  | .ok n => (o.writes.take n).filterMap id
  | .error _ => []

/-- The contract of `DataSource`: it claims no more items than fit, and only items it has written.
It may scribble over the rest of the slice, return fewer items than fit, and fail at any time. -/
class HonestSource (S : Type) (I : outParam Type) [DataSource S I] : Prop where
  honest : ∀ (s : S) (k n : Nat), (DataSource.read s k).1.result = .ok n →
    n ≤ k ∧ (DataSource.read s k).1.items.length = n

/-- `Reads s xs s'`: some calls of `read` turn the source `s` into `s'` and hand over `xs`. -/
inductive Reads [DataSource S I] : S → List I → S → Prop
  | done {s} : Reads s [] s
  | step {s xs s'} (k : Nat) : Reads (DataSource.read s k).2 xs s' →
      Reads s ((DataSource.read s k).1.items ++ xs) s'

/-- A finite stream: `rem s` is what the source has yet to deliver, `errs s` bounds the number of
I/O errors still to come. A read without error delivers the next items, at least one if there is room
and something left; an error delivers nothing. -/
structure Delivers (S : Type) {I : Type} [DataSource S I] (rem : S → List I) (errs : S → Nat) :
    Prop where
  ok : ∀ s k n, (DataSource.read s k).1.result = .ok n →
    rem s = (DataSource.read s k).1.items ++ rem (DataSource.read s k).2 ∧
    errs (DataSource.read s k).2 ≤ errs s ∧ (0 < k → rem s ≠ [] → 0 < n)
  err : ∀ s k e, (DataSource.read s k).1.result = .error e →
    rem (DataSource.read s k).2 = rem s ∧ errs (DataSource.read s k).2 < errs s

/-- A buffer as a queue: `view` is what it holds and `room` how much it can take at the moment.
`CanHold b t` tells that `t` items can be held in total, if necessary after making space.
`Inv` holds in all states which can be reached. -/
class LawfulBuffer (B : Type) (I : outParam Type) [Buffer B I] where
  Inv : B → Prop
  view : B → List I
  room : B → Nat
  CanHold : B → Nat → Prop
  canHold_le : ∀ {b t t'}, t ≤ t' → CanHold b t' → CanHold b t
  size : ∀ {b}, Inv b → (view b).length + room b ≤ usizeMax
  /-- the contents can be borrowed -/
  deref : ∀ {b}, Inv b → Buffer.deref b = .ok (view b)
  len : ∀ {b} chk, Inv b → Buffer.len chk b = .ok (view b).length
  /-- `consume` drops from the front -/
  consume : ∀ {b n} chk, Inv b → n ≤ (view b).length →
    ∃ b', Buffer.consume chk n b = .ok b' ∧ Inv b' ∧ view b' = (view b).drop n ∧
      room b' = room b ∧ Buffer.capacity b' = Buffer.capacity b ∧ ∀ t, CanHold b t → CanHold b' t
  consume_over : ∀ {b n}, Inv b → (view b).length < n → Buffer.consume true n b = .panic
  /-- `request_space` does not change the contents -/
  request : ∀ {b} chk n, Inv b → Buffer.requestSpace chk n b = .panic ∨
    ∃ b', Buffer.requestSpace chk n b = .ok b' ∧ Inv b' ∧ view b' = view b ∧
      Buffer.capacity b ≤ Buffer.capacity b' ∧ ∀ t, CanHold b t → CanHold b' t
  /-- and makes enough room, if it can -/
  request_fits : ∀ {b n} chk, Inv b → CanHold b ((view b).length + n) →
    ∃ b', Buffer.requestSpace chk n b = .ok b' ∧ n ≤ room b'
  /-- `fill` calls `read` once, with a slice of length `room`, and appends the items read -/
  fill : ∀ {S b} [DataSource S I] [HonestSource S I] chk (s : S), Inv b →
    ∃ b', Buffer.fill chk s b =
        .ok ((DataSource.read s (room b)).1.result, (DataSource.read s (room b)).2, b') ∧
      Inv b' ∧ view b' = view b ++ (DataSource.read s (room b)).1.items ∧
      room b' + (DataSource.read s (room b)).1.items.length = room b ∧
      Buffer.capacity b' = Buffer.capacity b ∧ ∀ t, CanHold b t → CanHold b' t

/-! ### Histories -/

/-- The operations on a buffer. -/
inductive BufOp where
  | fill
  | requestSpace (n : Nat)
  | consume (n : Nat)

/-- Perform an operation on a source and a buffer. -/
def BufOp.run [DataSource S I] [Buffer B I] (chk : Bool) (op : BufOp) (x : S × B) : Res (S × B) :=
  match op with
  | .fill => do
    let (_, s, b) ← Buffer.fill chk x.1 x.2
    .ok (s, b)
  | .requestSpace n => do
    let b ← Buffer.requestSpace chk n x.2
    .ok (x.1, b)
  | .consume n => do
    let b ← Buffer.consume chk n x.2
    .ok (x.1, b)

/-- Perform operations one after the other. -/
def runOps [DataSource S I] [Buffer B I] (chk : Bool) : List BufOp → S × B → Res (S × B)
  | [], x => .ok x
  | op :: ops, x => do
    let x ← op.run chk x
    runOps chk ops x

/-- `consume` is called with at most `len()`, as its documentation demands. -/
def Legal [DataSource S I] [Buffer B I] (chk : Bool) : List BufOp → S × B → Prop
  | [], _ => True
  | op :: ops, x =>
    (∀ n, op = .consume n → ∃ l, Buffer.len chk x.2 = .ok l ∧ n ≤ l) ∧
    ∀ x', op.run chk x = .ok x' → Legal chk ops x'

/-- The number of items consumed. -/
def consumed : List BufOp → Nat
  | [] => 0
  | .consume n :: ops => n + consumed ops
  | _ :: ops => consumed ops

/-! ### A source with a script -/

/-- What is going to happen: an I/O error, or data (at least one item) arriving in one piece. -/
inductive Event (I : Type) where
  | err (e : IoError)
  | data (x : I) (xs : List I)

/-- A source which does what the script says. -/
structure Script (I : Type) where
  events : List (Event I)

/-- A read gets data from one piece only. -/
def Script.read (s : Script I) (k : Nat) : ReadOut I × Script I :=
  match s.events, k with
  | [], _ => (⟨[], .ok 0⟩, s)
  | _, 0 => (⟨[], .ok 0⟩, s)
  | .err e :: r, _ => (⟨[], .error e⟩, ⟨r⟩)
  | .data x xs :: r, k + 1 =>
    (⟨some x :: (xs.take k).map some, .ok (1 + (xs.take k).length)⟩,
      match xs.drop k with
      | [] => ⟨r⟩
      | y :: ys => ⟨.data y ys :: r⟩)

instance : DataSource (Script I) I := ⟨Script.read⟩

/-- All the data of the script. -/
def Script.rem (s : Script I) : List I :=
  s.events.flatMap (fun | .err _ => [] | .data x xs => x :: xs)

/-- The number of errors in the script. -/
def Script.errs (s : Script I) : Nat :=
  (s.events.filter (fun | .err _ => true | .data _ _ => false)).length

end Chomp
