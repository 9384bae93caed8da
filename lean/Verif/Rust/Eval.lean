import Verif.Model.Combinators
import Verif.Model.Machine
import Verif.Model.Buffer
import Verif.Model.Fmt
import Verif.Lemmas.Res
import Verif.Rust.Text

/-
What the syntax trees of Verif/Rust/Text.lean mean: an interpreter for the part of Rust in which the
functions of /repo are written.

* Values are untyped. Shared references are looked through (`&x` and `*x` are `x`), so slices, items and
  numbers are copied. Moving is copying: that a moved value is not used again is left to Rust's type checker,
  and so are lifetimes.
* Only variables declared `mut` live in memory (a list of cells); `&mut x` is the address of the cell, and
  closures capture the cells of such variables and the values of all others.
* A `Cell<usize>` is the number in it. A `Vec` is its memory, some of which may be uninitialised, with its capacity and
  the allocator; a slice of it which may be written to (`&mut v[a..b]`) is the address of the `Vec` with `a` and `b`, a
  raw pointer is the address with an offset. What is undefined behaviour there is `ub` here.
* Methods are found by what the receiver is; the types of this crate come first, then the standard library.
* An expression which makes no sense (an unknown name, a number where a slice is due) is `stuck`. Its outcome
  is `ub`. So an equation with the model also says that it never happens, unless the model says `ub` (it does so only for
  functions of buffers).
-/

namespace Chomp.Rust

/-- Values. `X` are the items of the input, `Y` everything else whose type is a parameter of the function
(numbers, results, errors, states). -/
inductive Val (X Y : Type) where
  | bool (b : Bool)
  /-- `usize` -/
  | nat (n : Nat)
  | item (x : X)
  | slice (b : List X)
  | other (y : Y)
  | tuple (vs : List (Val X Y))
  | con (c : String) (vs : List (Val X Y))
  | strct (c : String) (fs : List (String × Val X Y))
  /-- a closure with the variables it captured: values, or cells of variables declared `mut` -/
  | clo (ps : List Pat) (body : Expr) (env : List (String × (Val X Y ⊕ Nat)))
  /-- a closure of the user -/
  | ext (k : Nat)
  /-- a function -/
  | fn (name : String)
  /-- `&mut` to a field (or all) of a cell -/
  | loc (a : Nat) (path : List String)
  /-- `slice::Iter`, or `Cloned` of it -/
  | iter (cloned : Bool) (b : List X)
  /-- `Vec`: its cells (`none` is an uninitialised one), its capacity, and the allocator: the `k`-th allocation yields
  `extra k` more cells than asked for, and `allocs` are made already -/
  | vec (mem : List (Option X)) (cap : Nat) (extra : Nat → Nat) (allocs : Nat)

/-- `()` -/
abbrev Val.unit : Val X Y := .tuple []

/-- Variables and their values, or the cells of those declared `mut`. -/
abbrev Env (X Y : Type) := List (String × (Val X Y ⊕ Nat))

/-- The innermost variable `x`. -/
def find (env : Env X Y) (x : String) : Option (Val X Y ⊕ Nat) :=
  match env with
  | [] => none
  | (y, s) :: env => if x = y then some s else find env x

/-- How an expression may end other than by a value: `return v` or `break`. -/
inductive Stop (X Y : Type) where
  | ret (v : Val X Y)
  | brk

/-- Running code: it may return or break, has the cells of the `mut` variables, and the state `σ` of the
user's closures; it may panic or not return. -/
abbrev RM (σ X Y : Type) := ExceptT (Stop X Y) (StateT (List (Val X Y)) (M σ))

/-- What the code is run with: the feature, the user's closures and the implementations of traits for the
user's types. -/
structure World (σ X Y : Type) where
  /-- compiled with the feature `verbose_error` -/
  verbose : Bool
  /-- the user's closures -/
  ext : Nat → List (Val X Y) → M σ (Val X Y)
  /-- `PartialEq` of items -/
  eq : X → X → M σ Bool
  ne : X → X → M σ Bool
  /-- `Clone` of items and of other values -/
  clone : X → M σ X
  cloneOther : Y → M σ Y
  /-- `From` between two error types of the user -/
  from_ : Y → M σ Y
  /-- bytes: literals, `<=` and `-` -/
  byte : Nat → X
  le : X → X → Bool
  sub : X → X → Res X
  /-- the number type of `decimal` and `signed` -/
  fromU8 : X → M σ Y
  fromI8 : Int → M σ Y
  add : Y → Y → M σ Y
  mul : Y → Y → M σ Y
  /-- the collection of `many` and the like, as a `FromIterator` implementation -/
  collect : Machine σ (Val X Y) (Val X Y)
  /-- the allocator: how many more cells than asked for it yields -/
  extra : Nat → Nat := fun _ => 0
  /-- `read` of the user's `DataSource` or `io::Read` -/
  read : Y → Nat → ReadOut X × Y := fun y _ => (⟨[], .ok 0⟩, y)
  /-- `next` of the user's iterator -/
  next : Y → Option X × Y := fun y => (none, y)
  /-- `PartialEq` of other values -/
  eqOther : Y → Y → M σ Bool := fun _ _ => pure true
  /-- `Debug` of items -/
  debug : X → Fmt.Text := fun _ => []
  /-- `Display` of numbers -/
  display : Y → Fmt.Text := fun _ => []
  /-- the arguments of the program, the first of which is its name -/
  args : List (Val X Y) := []
  /-- `File::open` -/
  openFile : Val X Y → Except IoError Y := fun _ => .error ⟨0⟩
  /-- the text is written to the standard output -/
  print : Val X Y → M σ Unit := fun _ => pure ()

variable {σ X Y : Type}

/-- Run code without cells. -/
def toR (x : M σ α) : RM σ X Y α := ExceptT.lift (StateT.lift x)

/-- An expression which makes no sense. -/
def stuck : RM σ X Y α := toR M.ub

/-- How the code ended, as a value. -/
def observe (x : RM σ X Y α) : RM σ X Y (Except (Stop X Y) α) :=
  ExceptT.mk (do let r ← x.run; pure (.ok r))

open Lean.Order in
@[partial_fixpoint_monotone]
theorem monotone_observe {γ : Type} [PartialOrder γ] (f : γ → RM σ X Y α) (h : monotone f) :
    monotone (fun x => observe (f x)) := by
  intro x y hxy
  have := h x y hxy
  exact MonoBind.bind_mono_left (m := StateT (List (Val X Y)) (M σ)) this

/-- Run the body of a function or closure: `return` ends here. -/
def catchRet (x : RM σ X Y (Val X Y)) : RM σ X Y (Val X Y) := do
  match ← observe x with
  | .ok v => pure v
  | .error (.ret v) => pure v
  | .error .brk => stuck

open Lean.Order in
@[partial_fixpoint_monotone]
theorem monotone_catchRet {γ : Type} [PartialOrder γ] (f : γ → RM σ X Y (Val X Y)) (h : monotone f) :
    monotone (fun x => catchRet (f x)) := by
  intro x y hxy
  exact MonoBind.bind_mono_left (m := RM σ X Y) (monotone_observe f h x y hxy)

/-- How a turn of a loop ended: the next one follows, or the loop is left. -/
def turned (r : Except (Stop X Y) α × List (Val X Y)) :
    List (Val X Y) ⊕ (Except (Stop X Y) (Val X Y) × List (Val X Y)) :=
  match r with
  | (.ok _, st) => .inl st
  | (.error .brk, st) => .inr (.ok .unit, st)
  | (.error (.ret v), st) => .inr (.error (.ret v), st)

/-- Repeat `x` until it ends other than by a value. -/
def iterate (x : RM σ X Y α) : RM σ X Y (Val X Y) :=
  ExceptT.mk (loop (fun (st : List (Val X Y)) => do
    let r ← x.run st
    pure (turned r)))

/-- The collection was given an answer (an iterator cannot `return` from the function which collects). -/
def answered (k : α → S) (r : Except (Stop X Y) α × List (Val X Y)) :
    S × List (Val X Y) ⊕ (Except (Stop X Y) (Val X Y) × List (Val X Y)) :=
  match r with
  | (.ok a, st) => .inl (k a, st)
  | (.error e, st) => .inr (.error e, st)

/-- `FromIterator::from_iter`: do what the collection asks for. -/
def drive (c : Machine σ (Val X Y) (Val X Y)) (next : RM σ X Y (Option (Val X Y)))
    (hint : RM σ X Y (Nat × Option Nat)) : RM σ X Y (Val X Y) :=
  ExceptT.mk (fun st => loop (fun (s : c.State × List (Val X Y)) =>
    match c.ask s.1 with
    | .done t => pure (.inr (.ok t, s.2))
    | .panic => M.panic
    | .next k => do
      let r ← next.run s.2
      pure (answered k r)
    | .hint k => do
      let r ← hint.run s.2
      pure (answered k r)
    | .act g => do
      let c ← g
      pure (.inl (c, s.2))) (c.start, st))

open Lean.Order in
/-- Loops are monotone in their body. -/
theorem loop_mono {f g : S → M σ (S ⊕ R)} (h : ∀ s, f s ⊑ g s) (s : S) : loop f s ⊑ loop g s := by
  have key : ∀ {s w o}, LoopRun f s w o → LoopRun g s w o := by
    intro s w o hr
    have step : ∀ {s w r}, f s w = r → r ≠ .div → g s w = r := by
      intro s w r hr hd
      have := h s w
      rw [hr] at this
      cases this with
      | bot => exact absurd rfl hd
      | refl => rfl
    induction hr with
    | brk e => exact .brk (step e (by simp))
    | panic e => exact .panic (step e (by simp))
    | ub e => exact .ub (step e (by simp))
    | cont e _ ih => exact .cont (step e (by simp)) ih
  intro w
  by_cases hd : loop f s w = .div
  · rw [hd]
    exact FlatOrder.rel.bot
  · rw [(key (loop_run s w hd)).loop_eq]
    exact FlatOrder.rel.refl

open Lean.Order in
@[partial_fixpoint_monotone]
theorem monotone_iterate {γ : Type} [PartialOrder γ] (f : γ → RM σ X Y α) (h : monotone f) :
    monotone (fun x => iterate (f x)) := by
  intro x y hxy
  refine fun st => loop_mono (fun st => ?_) st
  exact MonoBind.bind_mono_left (m := M σ) (h x y hxy st)

open Lean.Order in
@[partial_fixpoint_monotone]
theorem monotone_drive {γ : Type} [PartialOrder γ] (c : Machine σ (Val X Y) (Val X Y))
    (f : γ → RM σ X Y (Option (Val X Y))) (g : γ → RM σ X Y (Nat × Option Nat)) (hf : monotone f) (hg : monotone g) :
    monotone (fun x => drive c (f x) (g x)) := by
  intro x y hxy
  refine fun st => loop_mono (fun s => ?_) _
  match c.ask s.1 with
  | .done t => exact PartialOrder.rel_refl
  | .panic => exact PartialOrder.rel_refl
  | .next k => exact MonoBind.bind_mono_left (m := M σ) (hf x y hxy s.2)
  | .hint k => exact MonoBind.bind_mono_left (m := M σ) (hg x y hxy s.2)
  | .act g => exact PartialOrder.rel_refl

/-! ### Cells -/

/-- The number of the field `x` of a tuple or tuple struct. -/
def index (x : String) : Option Nat :=
  if x = "0" then some 0 else if x = "1" then some 1 else if x = "2" then some 2 else none

/-- The value of a field. -/
def getField (fs : List (String × Val X Y)) (x : String) : Option (Val X Y) :=
  match fs with
  | [] => none
  | (y, v) :: fs => if x = y then some v else getField fs x

/-- The field `x` of a value. -/
def Val.field (v : Val X Y) (x : String) : Option (Val X Y) :=
  match v with
  | .tuple vs => (index x).bind (vs[·]?)
  | .strct _ fs => getField fs x
  | .con c vs =>
    if c = "Range" then if x = "start" then vs[0]? else if x = "end" then vs[1]? else none
    else if c = "RangeFrom" then if x = "start" then vs[0]? else none
    else if c = "RangeTo" then if x = "end" then vs[0]? else none
    else (index x).bind (vs[·]?)
  | _ => none

/-- Give a field another value. -/
def setField (fs : List (String × Val X Y)) (x : String) (u : Val X Y) : List (String × Val X Y) :=
  match fs with
  | [] => []
  | (y, v) :: fs => if x = y then (y, u) :: fs else (y, v) :: setField fs x u

/-- Give the field `x` another value. -/
def Val.set (v : Val X Y) (x : String) (u : Val X Y) : Option (Val X Y) :=
  match v with
  | .tuple vs => (index x).map (fun k => .tuple (vs.set k u))
  | .strct c fs => some (.strct c (setField fs x u))
  | .con c vs => (index x).map (fun k => .con c (vs.set k u))
  | _ => none

/-- The value at a path. -/
def Val.at (v : Val X Y) : List String → Option (Val X Y)
  | [] => some v
  | x :: p => (v.field x).bind (·.at p)

/-- Put a value at a path. -/
def Val.put (v : Val X Y) (u : Val X Y) : List String → Option (Val X Y)
  | [] => some u
  | x :: p => do v.set x (← (← v.field x).put u p)

/-- `some` or stuck -/
def must (o : Option α) : RM σ X Y α :=
  match o with
  | some a => pure a
  | none => stuck

/-- Read what is at an address. -/
def read (a : Nat) (p : List String) : RM σ X Y (Val X Y) := do
  let st ← ExceptT.lift get
  must (st[a]?.bind (·.at p))

/-- Write to an address. -/
def write (a : Nat) (p : List String) (u : Val X Y) : RM σ X Y Unit := do
  let st ← ExceptT.lift get
  let v ← must (st[a]?.bind (·.put u p))
  ExceptT.lift (set (st.set a v))

/-- A mutable reference is followed. -/
def deref (v : Val X Y) : RM σ X Y (Val X Y) :=
  match v with
  | .loc a p => read a p
  | v => pure v

/-- The address of the place an expression denotes. -/
def place (env : Env X Y) : Expr → Option (Nat × List String)
  | .path x =>
    match find env x with
    | some (.inr a) => some (a, [])
    | some (.inl (.loc a p)) => some (a, p)
    | _ => none
  | .field e x => (place env e).map (fun (a, p) => (a, p ++ [x]))
  | .deref e => place env e
  | _ => none

/-- The address of the receiver `e` of a method, whose value is `r`. -/
def receiver (env : Env X Y) (e : Expr) (r : Val X Y) : Option (Nat × List String) :=
  match r with
  | .loc a p => some (a, p)
  | _ => place env e

/-! ### Patterns -/

mutual

/-- Match a value: the variables with their values, and whether they are `mut`. -/
def matchPat (p : Pat) (v : Val X Y) : Option (List (Bool × String × Val X Y)) :=
  match p with
  | .wild => some []
  | .bind m x => some [(m, x, v)]
  | .num n => match v with
    | .nat k => if k = n then some [] else none
    | _ => none
  | .con c ps => match v with
    | .con d vs => if c = d then matchPats ps vs else none
    | _ => none
  | .tuple ps => match v with
    | .tuple vs => matchPats ps vs
    | _ => none

def matchPats (ps : List Pat) (vs : List (Val X Y)) : Option (List (Bool × String × Val X Y)) :=
  match ps, vs with
  | [], [] => some []
  | p :: ps, v :: vs => do
    let a ← matchPat p v
    let b ← matchPats ps vs
    pure (a ++ b)
  | _, _ => none

end

/-- New variables. Those which are `mut` get new cells. -/
def alloc (bs : List (Bool × String × Val X Y)) (env : Env X Y) : RM σ X Y (Env X Y) :=
  match bs with
  | [] => pure env
  | (false, x, v) :: bs => alloc bs ((x, .inl v) :: env)
  | (true, x, v) :: bs => do
    let st ← ExceptT.lift get
    ExceptT.lift (set (st ++ [v]))
    alloc bs ((x, .inr st.length) :: env)

/-- Run the scope of variables: the cells they got are given back at the end. -/
def scope (bs : List (Bool × String × Val X Y)) (x : RM σ X Y α) : RM σ X Y α :=
  if bs.any (·.1) then do
    let n := (← ExceptT.lift get).length
    let r ← observe x
    ExceptT.lift (modify (·.take n))
    MonadExcept.ofExcept r
  else x

open Lean.Order in
@[partial_fixpoint_monotone]
theorem monotone_scope {γ : Type} [PartialOrder γ] (bs : List (Bool × String × Val X Y))
    (f : γ → RM σ X Y α) (h : monotone f) : monotone (fun x => scope bs (f x)) := by
  intro x y hxy
  unfold scope
  split
  · refine MonoBind.bind_mono_right (m := RM σ X Y) (fun n => ?_)
    exact MonoBind.bind_mono_left (m := RM σ X Y) (monotone_observe f h x y hxy)
  · exact h x y hxy

/-! ### The standard library -/

/-- Slicing and indexing; the range is checked. -/
def indexSlice (b : List X) (k : Val X Y) : M σ (Val X Y) :=
  match k with
  | .nat n => match b[n]? with
    | some x => pure (.item x)
    | none => M.panic
  | .con c [.nat n] =>
    if c = "RangeFrom" then if n ≤ b.length then pure (.slice (b.drop n)) else M.panic
    else if c = "RangeTo" then if n ≤ b.length then pure (.slice (b.take n)) else M.panic
    else M.ub
  | .con c [.nat m, .nat n] =>
    if c = "Range" then
      if m ≤ n then if n ≤ b.length then pure (.slice ((b.take n).drop m)) else M.panic else M.panic
    else M.ub
  | .con c [] => if c = "RangeFull" then pure (.slice b) else M.ub
  | _ => M.ub

/-- `&v[m..n]` for a `Vec`. -/
def indexVec (mem : List (Option X)) (k : Val X Y) : M σ (Val X Y) :=
  match k with
  | .con c [.nat m, .nat n] =>
    if c = "Range" then do
      let b ← M.lift (subslice mem m n)
      pure (.slice b)
    else M.ub
  | _ => M.ub

/-- `&mut v[m..]` for a `Vec` at an address. -/
def indexMut (a : Nat) (p : List String) (v k : Val X Y) : M σ (Val X Y) :=
  match v, k with
  | .vec mem _ _ _, .con c [.nat m] =>
    if c = "RangeFrom" then
      if m ≤ mem.length then pure (.con "SliceMut" [.loc a p, .nat m, .nat mem.length]) else M.panic
    else M.ub
  | .vec mem _ _ _, .con c [.nat m, .nat n] =>
    if c = "Range" then
      if m ≤ n then if n ≤ mem.length then pure (.con "SliceMut" [.loc a p, .nat m, .nat n]) else M.panic else M.panic
    else M.ub
  | _, _ => M.ub

/-- Write to the cells `m..n`: entries `none` leave them as they are. -/
def storeAt (mem : List (Option X)) (m n : Nat) (ws : List (Option X)) : List (Option X) :=
  mem.take m ++ (overlay ((mem.take n).drop m) ws ++ mem.drop n)

/-- Write to a slice of a `Vec`. -/
def store (a : Nat) (p : List String) (m n : Nat) (ws : List (Option X)) : RM σ X Y Unit := do
  match ← read a p with
  | .vec mem cap extra allocs => write a p (.vec (storeAt mem m n ws) cap extra allocs)
  | _ => stuck

/-- `s[k] = x` -/
def assignAt (s k v : Val X Y) : RM σ X Y (Val X Y) :=
  match s, k, v with
  | .con c [.loc a p, .nat m, .nat n], .nat k, .item x =>
    if c = "SliceMut" then
      if k < n - m then do
        store a p (m + k) (m + k + 1) [some x]
        pure .unit
      else toR M.panic
    else stuck
  | _, _, _ => stuck

/-- `io::Result<usize>` -/
def ofIo (r : Except IoError Nat) : Val X Y :=
  match r with
  | .ok n => .con "Ok" [.nat n]
  | .error e => .con "Err" [.con "io::Error" [.nat e.code]]

/-- `Some` and `None` -/
def optV (o : Option (Val X Y)) : Val X Y :=
  match o with
  | some v => .con "Some" [v]
  | none => .con "None" []

variable (W : World σ X Y)

/-- Compare item by item, up to the first difference. -/
def itemsEq (a b : List X) : M σ Bool :=
  match a, b with
  | x :: a, y :: b => do
    let r ← W.eq x y
    if r then itemsEq a b else pure false
  | _, _ => pure true

/-- `PartialEq` of slices and `Vec`. -/
def sliceEq (a b : List X) : M σ Bool := if a.length = b.length then itemsEq W a b else pure false

mutual

/-- `PartialEq`, where it is derived or of the standard library. -/
def valEq (v w : Val X Y) : M σ Bool :=
  match v with
  | .nat m => match w with | .nat n => pure (m == n) | _ => M.ub
  | .bool m => match w with | .bool n => pure (m == n) | _ => M.ub
  | .item x => match w with | .item y => W.eq x y | _ => M.ub
  | .slice a => match w with | .slice b => sliceEq W a b | _ => M.ub
  | .other x => match w with | .other y => W.eqOther x y | _ => M.ub
  | .con c vs => match w with | .con d ws => if c = d then valsEq vs ws else pure false | _ => M.ub
  | _ => M.ub

def valsEq (vs ws : List (Val X Y)) : M σ Bool :=
  match vs with
  | [] => match ws with | [] => pure true | _ => M.ub
  | v :: vs =>
    match ws with
    | w :: ws => do
      let r ← valEq v w
      if r then valsEq vs ws else pure false
    | [] => M.ub

end

/-- Operators. -/
def binop [Build] (o : Op) (a b : Val X Y) : M σ (Val X Y) :=
  match a, b with
  | .nat m, .nat n =>
    match o with
    | .sub => do let k ← M.lift (usub m n); pure (.nat k)
    | .add => do let k ← M.lift (uaddB Build.checked m n); pure (.nat k)
    -- only in constants, where it is checked by the compiler
    | .mul => if m * n ≤ usizeMax then pure (.nat (m * n)) else M.ub
    | .eq => pure (.bool (m == n))
    | .ne => pure (.bool (m != n))
    | .lt => pure (.bool (decide (m < n)))
    | .le => pure (.bool (decide (m ≤ n)))
    | .gt => pure (.bool (decide (m > n)))
    | .ge => pure (.bool (decide (m ≥ n)))
    | _ => M.ub
  | .bool m, .bool n =>
    match o with
    | .eq => pure (.bool (m == n))
    | _ => M.ub
  | .item x, .item y =>
    match o with
    | .eq => do let r ← W.eq x y; pure (.bool r)
    | .ne => do let r ← W.ne x y; pure (.bool r)
    | .le => pure (.bool (W.le x y))
    | .ge => pure (.bool (W.le y x))
    | .sub => do let r ← M.lift (W.sub x y); pure (.item r)
    | _ => M.ub
  | .other x, .other y =>
    match o with
    | .add => do let r ← W.add x y; pure (.other r)
    | .mul => do let r ← W.mul x y; pure (.other r)
    | .eq => do let r ← W.eqOther x y; pure (.bool r)
    | _ => M.ub
  | .slice a, .slice b =>
    match o with
    | .eq => do let r ← sliceEq W a b; pure (.bool r)
    | _ => M.ub
  | .con c [.nat m], .con d [.nat n] =>
    match o with
    | .eq => pure (.bool (c = d && m == n))
    -- of the crate bitflags
    | .bitor => if c = "ParserState" ∧ d = "ParserState" then pure (.con c [.nat (m ||| n)]) else M.ub
    | _ => M.ub
  | .con c vs, .con d ws =>
    match o with
    | .eq => do let r ← valEq W (.con c vs) (.con d ws); pure (.bool r)
    | _ => M.ub
  | _, _ => M.ub

/-- The type a value has, as far as methods of this crate are concerned. -/
def typeOf (v : Val X Y) : String :=
  match v with
  | .con c _ => c
  | .strct c _ => c
  | .nat _ => "usize"
  | _ => "-"

/-- Methods of the standard library. -/
def stdMethod (v : Val X Y) (m : String) (as : List (Val X Y)) : M σ (Val X Y) :=
  match v, as with
  | .slice b, [] =>
    if m = "len" then pure (.nat b.length)
    else if m = "first" then pure (optV (b.head?.map .item))
    else if m = "iter" then pure (.iter false b)
    else if m = "to_vec" then pure (.slice b)
    else M.ub
  | .iter _ b, [] => if m = "cloned" then pure (.iter true b) else M.ub
  | .con c [], [] =>
    if c = "None" then
      if m = "cloned" then pure (.con "None" [])
      else if m = "unwrap" then M.panic
      else if m = "is_none" then pure (.bool true)
      else M.ub
    else M.ub
  | .con c [.item x], [] =>
    if c = "Some" then
      if m = "cloned" then do let y ← W.clone x; pure (.con "Some" [.item y])
      else if m = "unwrap" then pure (.item x)
      else if m = "is_none" then pure (.bool false)
      else M.ub
    else M.ub
  | .con c [v], [] =>
    if c = "Some" then
      if m = "unwrap" then pure v
      else if m = "is_none" then pure (.bool false)
      else M.ub
    else if c = "Ok" then
      -- of the crate conv
      if m = "unwrap_ok" then pure v else M.ub
    else M.ub
  | .con c [.nat a], [.con d [.nat b]] =>
    -- of the crate bitflags
    if c = "InputMode" ∧ d = "InputMode" ∧ m = "contains" then pure (.bool (a &&& b == b))
    else if c = "ParserState" ∧ d = "ParserState" ∧ m = "contains" then pure (.bool (a &&& b == b))
    else M.ub
  | .other y, [] => if m = "clone" then do let z ← W.cloneOther y; pure (.other z) else M.ub
  | .nat n, [] =>
    -- of `Cell`
    if m = "get" then pure (.nat n) else M.ub
  | .vec mem cap _ _, [] =>
    if m = "len" then pure (.nat mem.length)
    else if m = "capacity" then pure (.nat cap)
    else M.ub
  | .con c [.loc _ _, .nat k, .nat n], [] => if c = "SliceMut" ∧ m = "len" then pure (.nat (n - k)) else M.ub
  | .con c [.loc a p, .nat k], [.nat n] =>
    if c = "ptr" ∧ m = "offset" then pure (.con "ptr" [.loc a p, .nat (k + n)]) else M.ub
  | .con c [.loc a p], [f] => if c = "ByRef" ∧ m = "inspect" then pure (.con "Inspect" [.loc a p, f]) else M.ub
  | _, _ => M.ub

/-- Methods of the standard library which take `&mut self` (or set a `Cell`). -/
def stdByMut (v : Val X Y) (m : String) : Bool :=
  if m = "by_ref" then true
  else match v with
  | .nat _ => m = "set"
  | .vec _ _ _ _ => m = "reserve" ∨ m = "set_len" ∨ m = "as_ptr" ∨ m = "as_mut_ptr"
  | .con _ _ => m = "insert" ∨ m = "remove"
  | .other _ => m = "read" ∨ m = "next"
  | _ => false

/-- `Vec::reserve`: nothing if there is room behind `len()`, "capacity overflow" beyond `isize::MAX`, otherwise a larger
allocation. Items have one byte. -/
def vecReserve (mem : List (Option X)) (cap : Nat) (extra : Nat → Nat) (allocs n : Nat) : Res (Val X Y) :=
  if mem.length + n ≤ cap then .ok (.vec mem cap extra allocs)
  else if mem.length + n ≤ isizeMax then
    .ok (.vec mem (min isizeMax (mem.length + n + extra allocs)) extra (allocs + 1))
  else .panic

/-- `Vec::set_len`: undefined behaviour beyond the capacity; new cells are uninitialised. -/
def vecSetLen (mem : List (Option X)) (cap : Nat) (extra : Nat → Nat) (allocs n : Nat) : Res (Val X Y) :=
  if n ≤ cap then .ok (.vec (mem.take n ++ List.replicate (n - mem.length) none) cap extra allocs)
  else .ub

/-- Methods of the standard library which take `&mut self`, for `self` at an address. -/
def stdMut (a : Nat) (p : List String) (v : Val X Y) (m : String) (as : List (Val X Y)) : RM σ X Y (Val X Y) :=
  if m = "by_ref" then
    match as with
    | [] => pure (.con "ByRef" [.loc a p])
    | _ => stuck
  else match v, as with
  | .nat _, [.nat n] =>
    -- of `Cell`
    if m = "set" then do
      write a p (.nat n)
      pure .unit
    else stuck
  | .vec mem cap extra allocs, [.nat n] =>
    if m = "reserve" then do
      let v ← toR (M.lift (vecReserve mem cap extra allocs n))
      write a p v
      pure .unit
    else if m = "set_len" then do
      let v ← toR (M.lift (vecSetLen mem cap extra allocs n))
      write a p v
      pure .unit
    else stuck
  | .vec _ _ _ _, [] => if m = "as_ptr" ∨ m = "as_mut_ptr" then pure (.con "ptr" [.loc a p, .nat 0]) else stuck
  | .con c [.nat s], [.con d [.nat t]] =>
    -- of the crate bitflags
    if c = "ParserState" ∧ d = "ParserState" then
      if m = "insert" then do
        write a p (.con c [.nat (s ||| t)])
        pure .unit
      else if m = "remove" then do
        write a p (.con c [.nat ((s ||| t) ^^^ t)])
        pure .unit
      else stuck
    else stuck
  | .other y, [] =>
    if m = "next" then
      match W.next y with
      | (o, y) => do
        write a p (.other y)
        pure (optV (o.map .item))
    else stuck
  | .other y, [.con c [.loc b q, .nat k, .nat n]] =>
    if c = "SliceMut" ∧ m = "read" then
      match W.read y (n - k) with
      | (out, y) => do
        write a p (.other y)
        store b q k n out.writes
        pure (ofIo out.result)
    else stuck
  | _, _ => stuck

/-- `read` of `io::Read for &[u8]`: as much as fits is copied. -/
def readSlice (b : List X) (as : List (Val X Y)) : RM σ X Y (Val X Y) :=
  match as with
  | [.con c [.loc a p, .nat k, .nat n]] =>
    if c = "SliceMut" then do
      store a p k n ((b.take (n - k)).map some)
      pure (.con "Ok" [.nat (min (n - k) b.length)])
    else stuck
  | _ => stuck

/-- `ptr::copy` inside of one allocation, to its beginning. -/
def stdPtrCopy (as : List (Val X Y)) : RM σ X Y (Val X Y) :=
  match as with
  | [.con c [.loc a p, .nat k], .con d [.loc b q, .nat l], .nat n] =>
    if c = "ptr" ∧ d = "ptr" ∧ a = b ∧ p = q ∧ l = 0 then do
      match ← read a p with
      | .vec mem cap extra allocs => do
        let mem ← toR (M.lift (ptrCopy mem k n))
        write a p (.vec mem cap extra allocs)
        pure .unit
      | _ => stuck
    else stuck
  | _ => stuck

/-- Text as a value. -/
def ofText (t : Fmt.Text) : Val X Y := .con "str" (t.map fun c => .nat c.toNat)

/-- The characters which are written for a part of a format: literal text, or a value with `{:?}` or `{}`. -/
def shown (v : Val X Y) : Option (List (Val X Y)) :=
  match v with
  | .con c vs =>
    if c = "str" then some vs
    else if c = "Debug" then
      match vs with
      | [.item x] => some ((W.debug x).map fun c => .nat c.toNat)
      | [.slice b] => some ((Fmt.slice W.debug b).map fun c => .nat c.toNat)
      | _ => none
    else if c = "Display" then
      match vs with
      | [.other y] => some ((W.display y).map fun c => .nat c.toNat)
      | _ => none
    else none
  | _ => none

/-- The characters of all parts of a format. -/
def allShown (parts : List (Val X Y)) : Option (List (Val X Y)) :=
  match parts with
  | [] => some []
  | v :: parts => do
    let a ← shown W v
    let b ← allShown parts
    pure (a ++ b)

/-- Literals `b".."`. -/
def itemsOf (vs : List (Val X Y)) : Option (List X) :=
  match vs with
  | [] => some []
  | .item x :: vs => (itemsOf vs).map (x :: ·)
  | _ => none

/-- `write!` to a formatter, which is the text it holds. -/
def writeFmt (a : Nat) (p : List String) (parts : List (Val X Y)) : RM σ X Y (Val X Y) :=
  match parts with
  | [] => pure (.con "Ok" [.unit])
  | v :: parts => do
    let cs ← must (shown W v)
    match ← read a p with
    | .con c old =>
      if c = "str" then do
        write a p (.con c (old ++ cs))
        writeFmt a p parts
      else stuck
    | _ => stuck

/-- Constants and functions of the standard library (and of the crates conv and bitflags). -/
def constant [Build] (x : String) : Option (Val X Y) :=
  if x = "debug_assertions" then some (.bool Build.checked)
  else if x = "DEFAULT" ∨ x = "input::DEFAULT" then some (.con "InputMode" [.nat 0])
  else if x = "END_OF_INPUT" ∨ x = "input::END_OF_INPUT" then some (.con "InputMode" [.nat 1])
  else none

def stdCall (f : String) (as : List (Val X Y)) : RM σ X Y (Val X Y) :=
  if f = "max" ∨ f = "cmp::max" then
    match as with
    | [.nat a, .nat b] => pure (.nat (max a b))
    | _ => stuck
  else if f = "mem::replace" then
    match as with
    | [.loc a p, v] => do
      let old ← read a p
      write a p v
      pure old
    | _ => stuck
  else if f = "<V as From<V>>::from" ∨ f = "<E as From<E>>::from" ∨ f = "Cell::new" then
    match as with
    | [v] => pure v
    | _ => stuck
  else if f = "Vec::new" then
    match as with
    | [] => pure (.vec [] 0 W.extra 0)
    | _ => stuck
  else if f = "Vec::with_capacity" then
    match as with
    | [.nat n] => do
      let v ← toR (M.lift (vecReserve [] 0 W.extra 0 n))
      pure v
    | _ => stuck
  else if f = "ptr::copy" then stdPtrCopy as
  else if f = "write!" then
    match as with
    | .loc a p :: parts => writeFmt W a p parts
    | _ => stuck
  else if f = "println!" then do
    let cs ← must (allShown W as)
    toR (W.print (.con "str" (cs ++ [.nat 10])))
    pure .unit
  else if f = "bytes!" then do
    let b ← must (itemsOf as)
    pure (.slice b)
  else if f = "i32" then
    match as with
    | [.item x] => do let y ← toR (W.fromU8 x); pure (.other y)
    | _ => stuck
  else if f = "env::args" then
    match as with
    | [] => pure (.con "Args" W.args)
    | _ => stuck
  else if f = "File::open" then
    match as with
    | [v] => match W.openFile v with
      | .ok y => pure (.con "Ok" [.other y])
      | .error e => pure (.con "Err" [.con "io::Error" [.nat e.code]])
    | _ => stuck
  else if f = "ParserState::empty" then
    match as with
    | [] => pure (.con "ParserState" [.nat 0])
    | _ => stuck
  else if f = "<V as From<E>>::from" then
    match as with
    | [.other y] => do let z ← toR (W.from_ y); pure (.other z)
    -- errors of this crate are only converted to themselves
    | [v] => pure v
    | _ => stuck
  else if f = "<T as ValueFrom<u8>>::value_from" then
    match as with
    | [.item x] => do let y ← toR (W.fromU8 x); pure (.con "Ok" [.other y])
    | _ => stuck
  else if f = "<T as ValueFrom<i8>>::value_from" then
    match as with
    | [.nat n] => do let y ← toR (W.fromI8 n); pure (.con "Ok" [.other y])
    | [.con c [.nat n]] =>
      if c = "-" then do let y ← toR (W.fromI8 (-n)); pure (.con "Ok" [.other y]) else stuck
    | _ => stuck
  else stuck

/-- `nth` of the arguments of the program, `ok` of `Result`, `expect` of `Option`. -/
def stdArgs (v : Val X Y) (m : String) (as : List (Val X Y)) : M σ (Val X Y) :=
  match v, as with
  | .con c vs, [.nat n] => if c = "Args" ∧ m = "nth" then pure (optV vs[n]?) else M.ub
  | .con c [v], [] =>
    if m = "ok" then
      if c = "Ok" then pure (.con "Some" [v]) else if c = "Err" then pure (.con "None" []) else M.ub
    else M.ub
  | .con c [v], [_] => if c = "Some" ∧ m = "expect" then pure v else M.ub
  | .con c [], [_] => if c = "None" ∧ m = "expect" then M.panic else M.ub
  | _, _ => M.ub

/-- A condition. -/
def asBool (v : Val X Y) : RM σ X Y Bool :=
  match v with
  | .bool b => pure b
  | _ => stuck

variable [Build]

mutual

/-- Evaluate an expression. -/
def eval (env : Env X Y) (e : Expr) : RM σ X Y (Val X Y) :=
  match e with
  | .num n => pure (.nat n)
  | .byte n => pure (.item (W.byte n))
  | .bool b => pure (.bool b)
  | .path x =>
    match find env x with
    | some (.inr a) => read a []
    | some (.inl v) => pure v
    | none =>
      match constant x with
      | some v => pure v
      | none => pure (.fn x)
  | .con c es => do
    let vs ← evals env es
    pure (.con c vs)
  | .strct c xs es => do
    let vs ← evals env es
    pure (.strct c (xs.zip vs))
  | .tuple es => do
    let vs ← evals env es
    pure (.tuple vs)
  | .call f es => do
    let f ← eval env f
    let vs ← evals env es
    apply f vs
  | .method e m es => do
    let r ← eval env e
    let v ← deref r
    let vs ← evals env es
    callMethod (receiver env e r) v m vs
  | .field e x => do
    let v ← eval env e
    let v ← deref v
    must (v.field x)
  | .index e k => do
    let v ← eval env e
    let k ← eval env k
    match v with
    | .slice b => toR (indexSlice b k)
    | .vec mem _ _ _ => toR (indexVec mem k)
    | _ => stuck
  | .neg e => do
    let v ← eval env e
    pure (.con "-" [v])
  | .not e => do
    let v ← eval env e
    let b ← asBool v
    pure (.bool !b)
  | .ref e => eval env e
  | .refMut e => do
    let (a, p) ← must (place env e)
    pure (.loc a p)
  | .refMutIndex e k => do
    let v ← eval env e
    let k ← eval env k
    let (a, p) ← must (place env e)
    toR (indexMut a p v k)
  | .deref e => do
    let v ← eval env e
    deref v
  | .bin o a b => do
    let a ← eval env a
    let b ← eval env b
    toR (binop W o a b)
  | .and a b => do
    let v ← eval env a
    let c ← asBool v
    if c then eval env b else pure (.bool false)
  | .or a b => do
    let v ← eval env a
    let c ← asBool v
    if c then pure (.bool true) else eval env b
  | .assign l r => do
    let v ← eval env r
    let (a, p) ← must (place env l)
    write a p v
    pure .unit
  | .assignIndex e k r => do
    let v ← eval env r
    let k ← eval env k
    let s ← eval env e
    assignAt s k v
  | .ite c t e => do
    let v ← eval env c
    let b ← asBool v
    if b then eval env t else eval env e
  | .mtch e arms => do
    let v ← eval env e
    evalArms env v arms
  | .letIn p e b => do
    let v ← eval env e
    let bs ← must (matchPat p v)
    scope bs do
      let env ← alloc bs env
      eval env b
  | .seq a b => do
    let _ ← eval env a
    eval env b
  | .closure ps b => pure (.clo ps b env)
  | .ret e => do
    let v ← eval env e
    throw (.ret v)
  | .brk => throw .brk
  | .loop b => iterate (eval env b)
  | .forIn p e b => do
    let v ← eval env e
    match v with
    | .con c [.nat m, .nat n] => if c = "Range" then forRange env p b m n else stuck
    | _ => stuck
  | .panic => toR M.panic
partial_fixpoint

/-- Call the method `m` of `v`, which is at the address `r` (if it is anywhere). -/
def callMethod (r : Option (Nat × List String)) (v : Val X Y) (m : String) (vs : List (Val X Y)) : RM σ X Y (Val X Y) :=
  match Text.find W.verbose (typeOf v) m with
  | some f =>
    if f.byMut then do
      let (a, p) ← must r
      callFn f (.loc a p :: vs)
    else callFn f (v :: vs)
  | none =>
    if stdByMut v m then do
      let (a, p) ← must r
      stdMut W a p v m vs
    else callStd v m vs
partial_fixpoint

/-- Evaluate from left to right. -/
def evals (env : Env X Y) (es : List Expr) : RM σ X Y (List (Val X Y)) :=
  match es with
  | [] => pure []
  | e :: es => do
    let v ← eval env e
    let vs ← evals env es
    pure (v :: vs)
partial_fixpoint

/-- The first arm which matches. -/
def evalArms (env : Env X Y) (v : Val X Y) (arms : List Arm) : RM σ X Y (Val X Y) :=
  match arms with
  | [] => stuck
  | .mk p guard body :: arms =>
    match matchPat p v with
    | none => evalArms env v arms
    | some bs => do
      let r ← scope bs do
        let env ← alloc bs env
        let g ← eval env guard
        let c ← asBool g
        if c then do
          let v ← eval env body
          pure (some v)
        else pure none
      match r with
      | some v => pure v
      | none => evalArms env v arms
partial_fixpoint

/-- `for p in m..n { b }` -/
def forRange (env : Env X Y) (p : Pat) (b : Expr) (m n : Nat) : RM σ X Y (Val X Y) :=
  if m < n then do
    let bs ← must (matchPat p (.nat m))
    let r ← observe (scope bs do
      let env ← alloc bs env
      eval env b)
    match r with
    | .ok _ => forRange env p b (m + 1) n
    | .error .brk => pure .unit
    | .error s => throw s
  else pure .unit
partial_fixpoint

/-- Call a function or closure. -/
def apply (f : Val X Y) (vs : List (Val X Y)) : RM σ X Y (Val X Y) :=
  match f with
  | .ext k => toR (W.ext k vs)
  | .clo ps body env => do
    let bs ← must (matchPats ps vs)
    scope bs do
      let env ← alloc bs env
      catchRet (eval env body)
  | .fn name =>
    match Text.find W.verbose "" name with
    | some f => callFn f vs
    | none =>
      if name = "FromIterator::from_iter" then
        match vs with
        | [it] => drive W.collect (nextOf it) (hintOf it)
        | _ => stuck
      else stdCall W name vs
  | .loc a p => do
    let f ← read a p
    apply f vs
  -- a variant as a function
  | .con c [] => pure (.con c vs)
  | _ => stuck
partial_fixpoint

/-- Call a function of the crate. -/
def callFn (f : Fn) (vs : List (Val X Y)) : RM σ X Y (Val X Y) := do
  let bs ← must (matchPats f.params vs)
  scope bs do
    let env ← alloc bs []
    catchRet (eval env f.body)
partial_fixpoint

/-- Methods of the standard library, also those which call closures. -/
def callStd (v : Val X Y) (m : String) (vs : List (Val X Y)) : RM σ X Y (Val X Y) :=
  if m = "position" then
    match v, vs with
    | .iter cloned b, [f] => position f cloned b 0
    | _, _ => stuck
  else if m = "fold" then
    match v, vs with
    | .iter false b, [a, f] => fold f a b
    | _, _ => stuck
  else if m = "map" then
    match v, vs with
    | .con c [x], [f] =>
      if c = "Ok" then do
        let y ← apply f [x]
        pure (.con "Ok" [y])
      else if c = "Err" then pure v
      else stuck
    | _, _ => stuck
  else if m = "map_err" then
    match v, vs with
    | .con c [x], [f] =>
      if c = "Ok" then pure v
      else if c = "Err" then do
        let y ← apply f [x]
        pure (.con "Err" [y])
      else stuck
    | _, _ => stuck
  else if m = "read" then
    match v with
    | .slice b => readSlice b vs
    | _ => stuck
  else if m = "nth" ∨ m = "ok" ∨ m = "expect" then toR (stdArgs v m vs)
  else toR (stdMethod W v m vs)
partial_fixpoint

/-- `Iterator::position` on what is left of an iterator, after `n` items. -/
def position (f : Val X Y) (cloned : Bool) (b : List X) (n : Nat) : RM σ X Y (Val X Y) :=
  match b with
  | [] => pure (.con "None" [])
  | c :: b => do
    let c ← if cloned then toR (W.clone c) else pure c
    let r ← apply f [.item c]
    let r ← asBool r
    if r then pure (.con "Some" [.nat n]) else position f cloned b (n + 1)
partial_fixpoint

/-- `Iterator::fold` -/
def fold (f : Val X Y) (a : Val X Y) (b : List X) : RM σ X Y (Val X Y) :=
  match b with
  | [] => pure a
  | c :: b => do
    let a ← apply f [a, .item c]
    fold f a b
partial_fixpoint

/-- `Iterator::next` of `Inspect`. -/
def nextOf (it : Val X Y) : RM σ X Y (Option (Val X Y)) :=
  match it with
  | .con c [.loc a p, g] =>
    if c = "Inspect" then do
      let v ← read a p
      let f ← must (Text.find W.verbose (typeOf v) "next")
      match ← callFn f [.loc a p] with
      | .con d [x] =>
        if d = "Some" then do
          let _ ← apply g [x]
          pure (some x)
        else stuck
      | .con d [] => if d = "None" then pure none else stuck
      | _ => stuck
    else stuck
  | _ => stuck
partial_fixpoint

/-- `Iterator::size_hint` of `Inspect`. -/
def hintOf (it : Val X Y) : RM σ X Y (Nat × Option Nat) :=
  match it with
  | .con c [.loc a p, _] =>
    if c = "Inspect" then do
      let v ← read a p
      let f ← must (Text.find W.verbose (typeOf v) "size_hint")
      match ← callFn f [v] with
      | .tuple [.nat m, .con d [.nat n]] => if d = "Some" then pure (m, some n) else stuck
      | .tuple [.nat m, .con d []] => if d = "None" then pure (m, none) else stuck
      | _ => stuck
    else stuck
  | _ => stuck
partial_fixpoint

end

end Chomp.Rust
