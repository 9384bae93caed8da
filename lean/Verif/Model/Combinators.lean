import Verif.Model.Parsers

/-
Model of /repo/src/combinators/macros.rs, /repo/src/combinators/bounded.rs and
/repo/src/combinators/mod.rs.
-/

namespace Chomp

/-- A `FromIterator<U>` implementation for `T`: it pulls items one at a time and may stop pulling
early (as the implementations for `Option` and `Result` do). Simplifications: it does not look at
`size_hint` and does not call `next` again after `None`. See `Driver` for the general case. -/
structure Collect (U T : Type) where
  Acc : Type
  /-- before the first `next`: start accumulating, or be done already -/
  start : Acc ⊕ T
  /-- after `Some(u)`: go on, or stop pulling -/
  feed : Acc → U → Acc ⊕ T
  /-- after `None` -/
  finish : Acc → T

/-- `FromIterator for Vec<U>`: never stops early. The accumulator is kept reversed. Simplification: there
is always enough memory; see `Driver.vec`. -/
def Collect.vec (U : Type) : Collect U (List U) where
  Acc := List U
  start := .inl []
  feed acc u := .inl (u :: acc)
  finish acc := acc.reverse

/-- `FromIterator<Option<U>> for Option<Vec<U>>`: stops at the first `None`. -/
def Collect.optionVec (U : Type) : Collect (Option U) (Option (List U)) where
  Acc := List U
  start := .inl []
  feed acc u := match u with
    | some u => .inl (u :: acc)
    | none => .inr none
  finish acc := some acc.reverse

/-- `FromIterator::from_iter($iter.by_ref().inspect(..))`, src/combinators/macros.rs:5-36: drive
`next` from the collection; the iterator is available afterwards. -/
def fromIter (c : Collect U T) (next : It → M σ (Option U × It)) (it : It) : M σ (T × It) :=
  match c.start with
  | .inr t => pure (t, it)
  | .inl a =>
    loop (fun (s : c.Acc × It) => do
      let (o, it') ← next s.2
      match o with
      | none => pure (.inr (c.finish s.1, it'))
      | some u =>
        match c.feed s.1 u with
        | .inl a' => pure (.inl (a', it'))
        | .inr t => pure (.inr (t, it'))) (a, it)

/-- Any code of a `FromIterator<U>` implementation for `T`: it is given the iterator, that is `next`,
`size_hint` and the state of the iterator, and returns the collection and the state it left. -/
def Driver (σ U T : Type) : Type 1 :=
  ∀ It : Type, (It → M σ (Option U × It)) → (It → Nat × Option Nat) → It → M σ (T × It)

/-- The code of a `Collect`: it does not use `size_hint`. -/
def Collect.driver (c : Collect U T) : Driver σ U T := fun _ next _ it => fromIter c next it

/-- What a collection does next: return, panic, call `next`, or call `size_hint`. -/
inductive Ask (U T S : Type) where
  | done (t : T)
  | panic
  | next (k : Option U → S)
  | hint (k : Nat × Option Nat → S)

/-- A `FromIterator` implementation without side effects as a state machine. It may call `next` again after
`None`, and may never return. -/
structure Consumer (U T : Type) where
  State : Type
  start : State
  ask : State → Ask U T State

/-- The code of such a collection. -/
def Consumer.driver (c : Consumer U T) : Driver σ U T := fun It next hint it =>
  loop (fun (s : c.State × It) =>
    match c.ask s.1 with
    | .done t => pure (.inr (t, s.2))
    | .panic => M.panic
    | .next k => do
      let (o, it) ← next s.2
      pure (.inl (k o, it))
    | .hint k => pure (.inl (k (hint s.2), s.2))) (c.start, it)

/-- Allocate memory for `cap` items. There is room for `room` of them. Asking for more panics
(`capacity overflow`, above `isize::MAX` bytes) or aborts; both are `panic` here. -/
def allocate (room cap : Nat) : M σ Nat := if cap ≤ room then pure cap else M.panic

/-- `FromIterator for Vec<U>` of the standard library (`SpecFromIterNested::from_iter`,
`Vec::extend_desugared`, `RawVec::grow_amortized`), with memory for `room` items. `minCap` is the least
capacity ever allocated (`MIN_NON_ZERO_CAP`; 0 in old versions). The accumulator is kept reversed. -/
def Driver.vec (minCap room : Nat) : Driver σ U (List U) := fun It next hint it => do
  let (o, it) ← next it
  match o with
  | none => pure ([], it)
  | some u =>
    let cap ← allocate room (max minCap (min ((hint it).1 + 1) usizeMax))
    loop (fun (s : List U × Nat × It) => do
      let (acc, cap, it) := s
      let (o, it) ← next it
      match o with
      | none => pure (.inr (acc.reverse, it))
      | some u =>
        if acc.length == cap then
          let cap ← allocate room
            (max minCap (max (cap * 2) (acc.length + min ((hint it).1 + 1) usizeMax)))
          pure (.inl (u :: acc, cap, it))
        else pure (.inl (u :: acc, cap, it))) ([u], cap, it)

namespace Bounded

variable [Build]

/-- `EndState`, src/combinators/macros.rs:56-60. -/
inductive EndState (I E : Type) where
  | error (b : List I) (e : E)
  | incomplete (n : Nat)
deriving DecidableEq, Repr

/-- `Iter`, src/combinators/macros.rs:62-76 (the parser is a parameter of `iterNext`). -/
structure Iter (I E D : Type) where
  state : EndState I E
  buf : Input I
  data : D

/-- The blocks handed to `run_iter!`, src/combinators/macros.rs:46-50: `sizeHint` is the
`$size_hint` block, `pre` the `$pre_next` block (true: `return None`), `on` the `$on_next` block. -/
structure Hooks (σ D : Type) where
  sizeHint : D → Nat × Option Nat
  pre : D → Bool
  on : D → M σ D

/-- `Iterator::next` of `Iter`, src/combinators/macros.rs:102-124. -/
def iterNext (h : Hooks σ D) (parser : Parser σ I U E)
    (it : Iter I E D) : M σ (Option U × Iter I E D) := do
  if h.pre it.data then
    pure (none, it)
  else
    match ← parser it.buf with
    | .data b v =>
      let d ← h.on it.data
      pure (some v, { it with buf := b, data := d })
    | .error b e => pure (none, { it with state := .error b e })
    | .incomplete n => pure (none, { it with state := .incomplete n })

/-- `run_iter!`, src/combinators/macros.rs:40-141. `fin` is the final `match`. -/
def runIter (k : Driver σ U T) (data : D) (h : Hooks σ D)
    (fin : T → Input I → D → EndState I E → ParseResult I T E)
    (parser : Parser σ I U E) : Parser σ I T E := fun i => do
  let (result, it) ← k _ (iterNext h parser) (fun it => h.sizeHint it.data) ⟨.incomplete 1, i, data⟩
  pure (fin result it.buf it.data it.state)

/-- `EndStateTill`, src/combinators/macros.rs:162-167. -/
inductive EndStateTill (I E : Type) where
  | error (b : List I) (e : E)
  | incomplete (n : Nat)
  | endSuccess
deriving DecidableEq, Repr

/-- `IterTill`, src/combinators/macros.rs:170-184. -/
structure IterTill (I E D : Type) where
  state : EndStateTill I E
  buf : Input I
  data : D

/-- `iter_till_end_test!`, src/combinators/macros.rs:263-272; `true` means `return None`. -/
def endTest (end_ : Parser σ I V N) (it : IterTill I E D) : M σ (Bool × IterTill I E D) := do
  match ← end_ it.buf with
  | .data b _ => pure (true, { it with buf := b, state := .endSuccess })
  | _ => pure (false, it)

/-- The blocks handed to `run_iter_till!`, src/combinators/macros.rs:152-156. -/
structure HooksTill (σ I E D : Type) where
  sizeHint : D → Nat × Option Nat
  pre : IterTill I E D → M σ (Bool × IterTill I E D)
  on : D → M σ D

/-- `Iterator::next` of `IterTill`, src/combinators/macros.rs:218-240. -/
def iterTillNext (h : HooksTill σ I E D)
    (parser : Parser σ I U E) (it : IterTill I E D) : M σ (Option U × IterTill I E D) := do
  let (stop, it) ← h.pre it
  if stop then
    pure (none, it)
  else
    match ← parser it.buf with
    | .data b v =>
      let d ← h.on it.data
      pure (some v, { it with buf := b, data := d })
    | .error b e => pure (none, { it with state := .error b e })
    | .incomplete n => pure (none, { it with state := .incomplete n })

/-- `run_iter_till!`, src/combinators/macros.rs:145-258. `fin` may panic (`unreachable!()`). -/
def runIterTill (k : Driver σ U T) (data : D) (h : HooksTill σ I E D)
    (fin : T → Input I → D → EndStateTill I E → M σ (ParseResult I T E))
    (parser : Parser σ I U E) : Parser σ I T E := fun i => do
  let (result, it) ← k _ (iterTillNext h parser) (fun it => h.sizeHint it.data)
    ⟨.incomplete 1, i, data⟩
  fin result it.buf it.data it.state

/-- The types implementing `BoundedRange`, src/combinators/bounded.rs:102, 251, 369, 458, 581:
`a..b`, `n..`, `..`, `..n` and `n`. -/
inductive Range where
  | range (a b : Nat)
  | from_ (n : Nat)
  | full
  | to (n : Nat)
  | exactly (n : Nat)
deriving DecidableEq, Repr

/-- `x = if x == 0 { 0 } else { x - 1 }` as used throughout bounded.rs. -/
def decSat (x : Nat) : M σ Nat := if x == 0 then pure 0 else M.lift (usub x 1)

/-- `x -= 1` -/
def dec (x : Nat) : M σ Nat := M.lift (usub x 1)

/-- `max(end, 1) - 1` -/
def maxOf (e : Nat) : Nat := max e 1 - 1

/-! #### `parse_many` -/

/-- The hooks of `Range<usize>::parse_many`, src/combinators/bounded.rs:118-133. -/
def hooksRange : Hooks σ (Nat × Nat) where
  sizeHint d := (d.1, some d.2)
  pre d := d.2 == 0
  on d := do
    let x ← decSat d.1
    let y ← dec d.2
    pure (x, y)

/-- The hooks of `RangeFrom<usize>::parse_many`, src/combinators/bounded.rs:264-273. -/
def hooksFrom : Hooks σ Nat where
  sizeHint d := (d, none)
  pre _ := false
  on := decSat

/-- The hooks of `RangeFull::parse_many`, src/combinators/bounded.rs:381-387. -/
def hooksFull : Hooks σ Unit where
  sizeHint _ := (0, none)
  pre _ := false
  on := pure

/-- The hooks of `RangeTo<usize>::parse_many`, src/combinators/bounded.rs:471-482. -/
def hooksTo : Hooks σ Nat where
  sizeHint d := (0, some d)
  pre d := d == 0
  on := dec

/-- The hooks of `usize::parse_many`, src/combinators/bounded.rs:594-605. -/
def hooksExactly : Hooks σ Nat where
  sizeHint d := (d, some d)
  pre d := d == 0
  on := dec

/-- `Range<usize>::parse_many`, src/combinators/bounded.rs:104-151. -/
def manyRange (a b : Nat) (k : Driver σ U T) (f : Parser σ I U E) : Parser σ I T E := fun i => do
  if a ≤ b then
    runIter k (a, maxOf b) hooksRange
      (fun result s d st =>
        match d, st with
        | (0, 0), _ => s.ret result
        | (0, _), .error _ _ => s.ret result
        | (0, _), .incomplete n => if s.isLastSlice then s.ret result else s.incomplete n
        | (_, _), .error b e => (s.replace b).err e
        | (_, _), .incomplete n => s.incomplete n)
      f i
  else M.panic

/-- `RangeFrom<usize>::parse_many`, src/combinators/bounded.rs:253-289. -/
def manyFrom (start : Nat) (k : Driver σ U T) (f : Parser σ I U E) : Parser σ I T E :=
  runIter k start hooksFrom
    (fun result s d st =>
      match d, st with
      | 0, .error _ _ => s.ret result
      | 0, .incomplete n => if s.isLastSlice then s.ret result else s.incomplete n
      | _, .error b e => (s.replace b).err e
      | _, .incomplete n => s.incomplete n)
    f

/-- `RangeFull::parse_many`, src/combinators/bounded.rs:371-400. -/
def manyFull (k : Driver σ U T) (f : Parser σ I U E) : Parser σ I T E :=
  runIter k () hooksFull
    (fun result s _ st =>
      match st with
      | .error _ _ => s.ret result
      | .incomplete n => if s.isLastSlice then s.ret result else s.incomplete n)
    f

/-- `RangeTo<usize>::parse_many`, src/combinators/bounded.rs:460-499. -/
def manyTo (end_ : Nat) (k : Driver σ U T) (f : Parser σ I U E) : Parser σ I T E :=
  runIter k (maxOf end_) hooksTo
    (fun result s d st =>
      match d, st with
      | 0, _ => s.ret result
      | _, .error _ _ => s.ret result
      | _, .incomplete n => if s.isLastSlice then s.ret result else s.incomplete n)
    f

/-- `usize::parse_many`, src/combinators/bounded.rs:583-618. -/
def manyExactly (num : Nat) (k : Driver σ U T) (f : Parser σ I U E) : Parser σ I T E :=
  runIter k num hooksExactly
    (fun result s d st =>
      match d, st with
      | 0, _ => s.ret result
      | _, .error b e => (s.replace b).err e
      | _, .incomplete n => s.incomplete n)
    f

/-- `bounded::many`, src/combinators/bounded.rs:717-724 (trait dispatch on the range type), for any
collection. -/
def manyWith (r : Range) (k : Driver σ U T) (f : Parser σ I U E) : Parser σ I T E :=
  match r with
  | .range a b => manyRange a b k f
  | .from_ n => manyFrom n k f
  | .full => manyFull k f
  | .to n => manyTo n k f
  | .exactly n => manyExactly n k f

/-- `bounded::many`, src/combinators/bounded.rs:717-724. -/
def many (r : Range) (c : Collect U T) (f : Parser σ I U E) : Parser σ I T E := manyWith r c.driver f

/-! #### `skip_many` -/

/-- `Range<usize>::skip_many`, src/combinators/bounded.rs:154-191. Loop variables: `i, min, max`. -/
def skipManyRange (a b : Nat) (f : Parser σ I T E) : Parser σ I Unit E := fun i => do
  if a ≤ b then
    loop (fun (s : Input I × Nat × Nat) => do
      let (i, min, max) := s
      if max == 0 then
        pure (.inr (i.ret ()))
      else
        match ← f i with
        | .data b _ =>
          let min ← decSat min
          let max ← dec max
          pure (.inl (b, min, max))
        | .error b e =>
          if min == 0 then pure (.inr (i.ret ()))
          else pure (.inr ((i.replace b).err e))
        | .incomplete n =>
          if min == 0 && i.isLastSlice then pure (.inr (i.ret ()))
          else pure (.inr (i.incomplete n))) (i, a, maxOf b)
  else M.panic

/-- `RangeFrom<usize>::skip_many`, src/combinators/bounded.rs:292-321. -/
def skipManyFrom (start : Nat) (f : Parser σ I T E) : Parser σ I Unit E := fun i =>
  loop (fun (s : Input I × Nat) => do
    let (i, min) := s
    match ← f i with
    | .data b _ =>
      let min ← decSat min
      pure (.inl (b, min))
    | .error b e =>
      if min == 0 then pure (.inr (i.ret ()))
      else pure (.inr ((i.replace b).err e))
    | .incomplete n =>
      if min == 0 && i.isLastSlice then pure (.inr (i.ret ()))
      else pure (.inr (i.incomplete n))) (i, start)

/-- `RangeFull::skip_many`, src/combinators/bounded.rs:403-419. -/
def skipManyFull (f : Parser σ I T E) : Parser σ I Unit E := fun i =>
  loop (fun (i : Input I) => do
    match ← f i with
    | .data b _ => pure (.inl b)
    | .error _ _ => pure (.inr (i.ret ()))
    | .incomplete n =>
      if i.isLastSlice then pure (.inr (i.ret ()))
      else pure (.inr (i.incomplete n))) i

/-- `RangeTo<usize>::skip_many`, src/combinators/bounded.rs:502-530. -/
def skipManyTo (end_ : Nat) (f : Parser σ I T E) : Parser σ I Unit E := fun i =>
  loop (fun (s : Input I × Nat) => do
    let (i, max) := s
    if max == 0 then
      pure (.inr (i.ret ()))
    else
      match ← f i with
      | .data b _ =>
        let max ← dec max
        pure (.inl (b, max))
      | .error _ _ => pure (.inr (i.ret ()))
      | .incomplete n =>
        if i.isLastSlice then pure (.inr (i.ret ()))
        else pure (.inr (i.incomplete n))) (i, maxOf end_)

/-- `usize::skip_many`, src/combinators/bounded.rs:621-652. In the `Incomplete(n)` arm (643-647) the
bound `n` shadows the counter. -/
def skipManyExactly (num : Nat) (f : Parser σ I T E) : Parser σ I Unit E := fun i =>
  loop (fun (s : Input I × Nat) => do
    let (i, n) := s
    if n == 0 then
      pure (.inr (i.ret ()))
    else
      match ← f i with
      | .data b _ =>
        let n ← dec n
        pure (.inl (b, n))
      | .error b e =>
        if n == 0 then pure (.inr (i.ret ()))
        else pure (.inr ((i.replace b).err e))
      | .incomplete n =>
        if n == 0 then pure (.inr (i.ret ()))
        else pure (.inr (i.incomplete n))) (i, num)

/-- `bounded::skip_many`, src/combinators/bounded.rs:741-746. -/
def skipMany (r : Range) (f : Parser σ I T E) : Parser σ I Unit E :=
  match r with
  | .range a b => skipManyRange a b f
  | .from_ n => skipManyFrom n f
  | .full => skipManyFull f
  | .to n => skipManyTo n f
  | .exactly n => skipManyExactly n f

/-! #### `many_till` -/

/-- The hooks of `Range<usize>::many_till`, src/combinators/bounded.rs:212-235. -/
def hooksTillRange (end_ : Parser σ I V N) : HooksTill σ I E (Nat × Nat) where
  sizeHint d := (d.1, some d.2)
  pre it := do
    let (stop, it) ← if it.data.1 == 0 then endTest end_ it else pure (false, it)
    if stop then pure (true, it)
    else if it.data.2 == 0 then do
      let (_, it) ← endTest end_ it
      pure (true, it)
    else pure (false, it)
  on d := do
    let x ← decSat d.1
    let y ← dec d.2
    pure (x, y)

/-- The hooks of `RangeFrom<usize>::many_till`, src/combinators/bounded.rs:339-352. -/
def hooksTillFrom (end_ : Parser σ I V N) : HooksTill σ I E Nat where
  sizeHint d := (d, none)
  pre it := if it.data == 0 then endTest end_ it else pure (false, it)
  on := decSat

/-- The hooks of `RangeFull::many_till`, src/combinators/bounded.rs:436-444. -/
def hooksTillFull (end_ : Parser σ I V N) : HooksTill σ I E Unit where
  sizeHint _ := (0, none)
  pre it := endTest end_ it
  on := pure

/-- The hooks of `RangeTo<usize>::many_till`, src/combinators/bounded.rs:548-563. -/
def hooksTillTo (end_ : Parser σ I V N) : HooksTill σ I E Nat where
  sizeHint d := (0, some d)
  pre it := do
    let (stop, it) ← endTest end_ it
    if stop then pure (true, it)
    else pure (it.data == 0, it)
  on := dec

/-- The hooks of `usize::many_till`, src/combinators/bounded.rs:669-684. -/
def hooksTillExactly (end_ : Parser σ I V N) : HooksTill σ I E Nat where
  sizeHint d := (d, some d)
  pre it := do
    if it.data == 0 then
      let (_, it) ← endTest end_ it
      pure (true, it)
    else pure (false, it)
  on := dec

/-- `Range<usize>::many_till`, src/combinators/bounded.rs:194-248. -/
def manyTillRange (a b : Nat) (k : Driver σ U T) (p : Parser σ I U E) (end_ : Parser σ I V N) :
    Parser σ I T E := fun i => do
  if a ≤ b then
    runIterTill k (a, maxOf b) (hooksTillRange end_)
      (fun result s d st =>
        match d, st with
        | (0, _), .endSuccess => pure (s.ret result)
        | (_, _), .error b e => pure ((s.replace b).err e)
        | (_, _), .incomplete n => pure (s.incomplete n)
        | (_, _), .endSuccess => M.panic)
      p i
  else M.panic

/-- `RangeFrom<usize>::many_till`, src/combinators/bounded.rs:324-366. -/
def manyTillFrom (start : Nat) (k : Driver σ U T) (p : Parser σ I U E) (end_ : Parser σ I V N) :
    Parser σ I T E :=
  runIterTill k start (hooksTillFrom end_)
    (fun result s d st =>
      match d, st with
      | 0, .endSuccess => pure (s.ret result)
      | _, .error b e => pure ((s.replace b).err e)
      | _, .incomplete n => pure (s.incomplete n)
      | _, .endSuccess => M.panic)
    p

/-- `RangeFull::many_till`, src/combinators/bounded.rs:422-455. -/
def manyTillFull (k : Driver σ U T) (p : Parser σ I U E) (end_ : Parser σ I V N) :
    Parser σ I T E :=
  runIterTill k () (hooksTillFull end_)
    (fun result s _ st =>
      match st with
      | .endSuccess => pure (s.ret result)
      | .error b e => pure ((s.replace b).err e)
      | .incomplete n => pure (s.incomplete n))
    p

/-- `RangeTo<usize>::many_till`, src/combinators/bounded.rs:533-578. -/
def manyTillTo (e : Nat) (k : Driver σ U T) (p : Parser σ I U E) (end_ : Parser σ I V N) :
    Parser σ I T E :=
  runIterTill k (maxOf e) (hooksTillTo end_)
    (fun result s d st =>
      match d, st with
      | 0, .endSuccess => pure (s.ret result)
      | _, .error b e => pure ((s.replace b).err e)
      | _, .incomplete n => pure (s.incomplete n)
      | _, .endSuccess => M.panic)
    p

/-- `usize::many_till`, src/combinators/bounded.rs:655-698. -/
def manyTillExactly (num : Nat) (k : Driver σ U T) (p : Parser σ I U E) (end_ : Parser σ I V N) :
    Parser σ I T E :=
  runIterTill k num (hooksTillExactly end_)
    (fun result s d st =>
      match d, st with
      | 0, .endSuccess => pure (s.ret result)
      | _, .error b e => pure ((s.replace b).err e)
      | _, .incomplete n => pure (s.incomplete n)
      | _, .endSuccess => M.panic)
    p

/-- `bounded::many_till`, src/combinators/bounded.rs:763-773, for any collection. -/
def manyTillWith (r : Range) (k : Driver σ U T) (p : Parser σ I U E) (end_ : Parser σ I V N) :
    Parser σ I T E :=
  match r with
  | .range a b => manyTillRange a b k p end_
  | .from_ n => manyTillFrom n k p end_
  | .full => manyTillFull k p end_
  | .to n => manyTillTo n k p end_
  | .exactly n => manyTillExactly n k p end_

/-- `bounded::many_till`, src/combinators/bounded.rs:763-773. -/
def manyTill (r : Range) (c : Collect U T) (p : Parser σ I U E) (end_ : Parser σ I V N) :
    Parser σ I T E := manyTillWith r c.driver p end_

end Bounded

namespace Comb

variable [Build]

/-- `count`, src/combinators/mod.rs:34-40. -/
def count (num : Nat) (c : Collect U T) (p : Parser σ I U E) : Parser σ I T E :=
  Bounded.many (.exactly num) c p

/-- `option`, src/combinators/mod.rs:58-70. -/
def option (f : Parser σ I T E) (default : T) : Parser σ I T E := fun i => do
  match ← f i with
  | .data b d => pure (b.ret d)
  | .error _ _ => pure (i.ret default)
  | .incomplete n => if i.isLastSlice then pure (i.ret default) else pure (i.incomplete n)

/-- `or`, src/combinators/mod.rs:94-106. -/
def or (f g : Parser σ I T E) : Parser σ I T E := fun i => do
  match ← f i with
  | .data b d => pure (b.ret d)
  | .error _ _ => g i
  | .incomplete n => if i.isLastSlice then g i else pure (i.incomplete n)

/-- `many`, src/combinators/mod.rs:128-134. -/
def many (c : Collect U T) (f : Parser σ I U E) : Parser σ I T E := Bounded.many .full c f

/-- `many1`, src/combinators/mod.rs:157-163. -/
def many1 (c : Collect U T) (f : Parser σ I U E) : Parser σ I T E := Bounded.many (.from_ 1) c f

/-- Run a computation on captured state `σ` inside a closure which additionally captures a local
variable of type `τ`. -/
def withLocal (x : M σ α) : M (σ × τ) α := fun w =>
  match x w.1 with
  | .ok (a, w') => .ok (a, (w', w.2))
  | .panic => .panic
  | .ub => .ub
  | .div => .div

/-- Give a local variable its initial value, run, and drop it. -/
def newLocal (t : τ) (x : M (σ × τ) α) : M σ α := fun w =>
  match x (w, t) with
  | .ok (a, w') => .ok (a, w'.1)
  | .panic => .panic
  | .ub => .ub
  | .div => .div

/-- The closure `parser` of `sep_by` and `sep_by1`, src/combinators/mod.rs:194-200 and 235-241. The
second component of the captured state is the local variable `item`. -/
def sepParser (conv : N → E) (p : Parser σ I U E) (sep : Parser σ I V N) :
    Parser (σ × Bool) I U E := fun i => do
  let item := (← get).2
  let r : ParseResult I Unit N ←
    if item then do
      let r ← withLocal (sep i)
      r.map (fun _ => pure ())
    else pure (i.ret ())
  let r ← r.andThen conv (fun i => withLocal (p i))
  r.inspect (fun _ => modify (fun w => (w.1, true)))

/-- `sep_by`, src/combinators/mod.rs:182-203. -/
def sepBy (conv : N → E) (c : Collect U T) (p : Parser σ I U E) (sep : Parser σ I V N) :
    Parser σ I T E := fun i =>
  newLocal false (Bounded.many .full c (sepParser conv p sep) i)

/-- `sep_by1`, src/combinators/mod.rs:223-244. -/
def sepBy1 (conv : N → E) (c : Collect U T) (p : Parser σ I U E) (sep : Parser σ I V N) :
    Parser σ I T E := fun i =>
  newLocal false (Bounded.many (.from_ 1) c (sepParser conv p sep) i)

/-- `many_till`, src/combinators/mod.rs:261-270. -/
def manyTill (c : Collect U T) (p : Parser σ I U E) (end_ : Parser σ I V N) : Parser σ I T E :=
  Bounded.manyTill .full c p end_

/-- `skip_many`, src/combinators/mod.rs:287-291. -/
def skipMany (f : Parser σ I T E) : Parser σ I Unit E := Bounded.skipMany .full f

/-- `skip_many1`, src/combinators/mod.rs:314-317. -/
def skipMany1 (f : Parser σ I T E) : Parser σ I Unit E := Bounded.skipMany (.from_ 1) f

/-- `matched_by`, src/combinators/mod.rs:328-344. -/
def matchedBy (f : Parser σ I T E) : Parser σ I (List I × T) E := fun i => do
  let buf := i.buf
  match ← f i with
  | .data b t =>
    let diff ← M.lift (usub buf.length b.buf.length)
    let n ← sliceTo buf diff
    pure (b.ret (n, t))
  | .error b e => pure ((i.replace b).err e)
  | .incomplete n => pure (i.incomplete n)

/-- `look_ahead`, src/combinators/mod.rs:357-364. -/
def lookAhead (f : Parser σ I T E) : Parser σ I T E := fun i => do
  match ← f i with
  | .data _ t => pure (i.ret t)
  | .error b t => pure ((i.replace b).err t)
  | .incomplete n => pure (i.incomplete n)

end Comb

end Chomp
