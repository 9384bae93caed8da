import Verif.Model.Res

/-
Model of /repo/src/buffer/data_source.rs and /repo/src/buffer/buffer.rs.

`chk` tells whether the crate is built with `debug_assert!` and overflow checks (debug profile) or
without (release profile).
-/

namespace Chomp

/-! ### usize -/

/-- `a + b` on `usize`. -/
def uaddB (chk : Bool) (a b : Nat) : Res Nat :=
  if a + b ≤ usizeMax then .ok (a + b)
  else if chk then .panic else .ok ((a + b) % 2 ^ 64)

/-- `a - b` on `usize`. -/
def usubB (chk : Bool) (a b : Nat) : Res Nat :=
  if b ≤ a then .ok (a - b)
  else if chk then .panic else .ok ((a + 2 ^ 64 - b) % 2 ^ 64)

/-- `debug_assert!(c)` -/
def debugAssert (chk : Bool) (c : Bool) : Res Unit := if chk && !c then .panic else .ok ()

/-- `assert!(c)` -/
def assert (c : Bool) : Res Unit := if c then .ok () else .panic

/-! ### Memory

Backing memory is a list of cells; `none` is an uninitialised one. -/

/-- A slice of memory becomes a `&[I]`: undefined behaviour if a cell is uninitialised. -/
def expose : List (Option I) → Res (List I)
  | [] => .ok []
  | some x :: l => do
    let xs ← expose l
    .ok (x :: xs)
  | none :: _ => .ub

/-- `&buffer[a..b]`, panics if out of range. -/
def subslice (mem : List (Option I)) (a b : Nat) : Res (List I) :=
  if a ≤ b ∧ b ≤ mem.length then expose ((mem.drop a).take (b - a)) else .panic

/-- `ptr::copy(p.offset(src), p, count)` inside one allocation whose initial part is `mem`;
undefined behaviour if the source range leaves it. (The destination range is not longer.) -/
def ptrCopy (mem : List (Option I)) (src count : Nat) : Res (List (Option I)) :=
  if src + count ≤ mem.length then .ok ((mem.drop src).take count ++ mem.drop count) else .ub

/-- Store what a data source wrote into the slice `mem`; entry `none` leaves a cell as it is. A safe
source cannot write outside of the slice. -/
def overlay : List (Option I) → List (Option I) → List (Option I)
  | _ :: m, some x :: ws => some x :: overlay m ws
  | c :: m, none :: ws => c :: overlay m ws
  | [], _ => []
  | m, [] => m

/-! ### Data sources -/

/-- `io::Error`. Only used to be passed on. -/
structure IoError where
  code : Nat
deriving DecidableEq, Repr

/-- What a call of `read` did: the cells it wrote and what it returned. -/
structure ReadOut (I : Type) where
  writes : List (Option I)
  result : Except IoError Nat

/-- `DataSource`, src/buffer/data_source.rs:6-22. `read` gets the length of the slice only, as it
must not read from the slice. For sources which panic see `Model/Unwind.lean`, for those which have effects or do
not return `Model/Live.lean`. -/
class DataSource (S : Type) (I : outParam Type) where
  read : S → Nat → ReadOut I × S

/-- `ReadDataSource`, src/buffer/data_source.rs:28-50. An `io::Read` is anything with the same
signature as `DataSource`, over bytes. -/
structure ReadDataSource (R : Type) where
  inner : R

/-- `ReadDataSource::read`, src/buffer/data_source.rs:43-50. -/
instance [DataSource R UInt8] : DataSource (ReadDataSource R) UInt8 where
  read s k :=
    let (out, r) := DataSource.read s.inner k
    (out, ⟨r⟩)

/-- `Iterator`. `next` may yield items again after `None`. -/
class Iter (J : Type) (I : outParam Type) where
  next : J → Option I × J

/-- The loop of `IteratorDataSource::read`, src/buffer/data_source.rs:78-86; `k` is
`buffer.len() - n`. Yields the items stored. -/
def iterRead [Iter J I] : Nat → J → List I × J
  | 0, j => ([], j)
  | k + 1, j =>
    match Iter.next j with
    | (some x, j') =>
      let (xs, j'') := iterRead k j'
      (x :: xs, j'')
    | (none, j') => ([], j')

/-- `IteratorDataSource`, src/buffer/data_source.rs:52-70. -/
structure IteratorDataSource (J : Type) where
  inner : J

/-- `IteratorDataSource::read`, src/buffer/data_source.rs:72-90. -/
instance [Iter J I] : DataSource (IteratorDataSource J) I where
  read s k :=
    let (xs, j) := iterRead k s.inner
    (⟨xs.map some, .ok xs.length⟩, ⟨j⟩)

/-! ### The trait -/

/-- `Buffer`, src/buffer/buffer.rs:15-55, with `Deref`. -/
class Buffer (B : Type) (I : outParam Type) where
  deref : B → Res (List I)
  fill {S : Type} [DataSource S I] (chk : Bool) : S → B → Res (Except IoError Nat × S × B)
  requestSpace (chk : Bool) : Nat → B → Res B
  consume (chk : Bool) : Nat → B → Res B
  len (chk : Bool) : B → Res Nat
  capacity : B → Nat

/-! ### FixedSizeBuffer -/

/-- `isize::MAX`, the largest size of an allocation. -/
def isizeMax : Nat := 2 ^ 63 - 1

/-- `FixedSizeBuffer`, src/buffer/buffer.rs:62-72. -/
structure FixedSizeBuffer (I : Type) where
  buffer : List (Option I)
  populated : Nat
  used : Nat

namespace FixedSizeBuffer

/-- `FixedSizeBuffer::with_size`, src/buffer/buffer.rs:82-101. `Vec::with_capacity` panics
beyond `isize::MAX` (items of one byte; allocation failure is not modelled). `set_len` uses the
capacity just allocated. -/
def withSize (size : Nat) : Res (FixedSizeBuffer I) := do
  assert (size > 0)
  assert (size ≤ isizeMax)
  .ok ⟨List.replicate size none, 0, 0⟩

/-- `DEFAULT_BUFFER_SIZE` and `FixedSizeBuffer::new`, src/buffer/buffer.rs:9, 76-78. -/
def new : Res (FixedSizeBuffer I) := withSize (6 * 1024)

/-- `deref`, src/buffer/buffer.rs:108-110. -/
def deref (b : FixedSizeBuffer I) : Res (List I) := subslice b.buffer b.used b.populated

/-- `fill`, src/buffer/buffer.rs:122-130. -/
def fill [DataSource S I] (chk : Bool) (s : S) (b : FixedSizeBuffer I) :
    Res (Except IoError Nat × S × FixedSizeBuffer I) :=
  if b.populated ≤ b.buffer.length then
    let (out, s') := DataSource.read s (b.buffer.length - b.populated)
    let b := { b with
      buffer := b.buffer.take b.populated ++ overlay (b.buffer.drop b.populated) out.writes }
    match out.result with
    | .error e => .ok (.error e, s', b)
    | .ok n => do
      debugAssert chk (b.populated + n ≤ b.buffer.length)
      let p ← uaddB chk b.populated n
      .ok (.ok n, s', { b with populated := p })
  else .panic

/-- `request_space`, src/buffer/buffer.rs:133-147. -/
def requestSpace (chk : Bool) (items : Nat) (b : FixedSizeBuffer I) : Res (FixedSizeBuffer I) := do
  assert (b.populated ≥ b.used)
  let free ← usubB chk b.buffer.length b.populated
  if free < items then
    let count ← usubB chk b.populated b.used
    let mem ← ptrCopy b.buffer b.used count
    let p ← usubB chk b.populated b.used
    .ok { buffer := mem, populated := p, used := 0 }
  else .ok b

/-- `consume`, src/buffer/buffer.rs:150-154. -/
def consume (chk : Bool) (items : Nat) (b : FixedSizeBuffer I) : Res (FixedSizeBuffer I) := do
  debugAssert chk (b.used + items ≤ b.populated)
  let u ← uaddB chk b.used items
  .ok { b with used := u }

/-- `len`, src/buffer/buffer.rs:157-159. -/
def len (chk : Bool) (b : FixedSizeBuffer I) : Res Nat := usubB chk b.populated b.used

/-- `capacity`, src/buffer/buffer.rs:162-164. -/
def capacity (b : FixedSizeBuffer I) : Nat := b.buffer.length

instance : Buffer (FixedSizeBuffer I) I where
  deref := deref
  fill := fill
  requestSpace := requestSpace
  consume := consume
  len := len
  capacity := capacity

end FixedSizeBuffer

/-! ### GrowingBuffer -/

/-- `GrowingBuffer`, src/buffer/buffer.rs:174-184. `buffer` and `cap` are the contents (up to `len()`)
and the capacity of the `Vec`. `extra` and `allocs` stand for the allocator: the `k`-th reallocation
yields `extra k` more cells than asked for. -/
structure GrowingBuffer (I : Type) where
  buffer : List (Option I)
  cap : Nat
  populated : Nat
  limit : Nat
  used : Nat
  extra : Nat → Nat
  allocs : Nat

namespace GrowingBuffer

/-- `GrowingBuffer::with_limit`, src/buffer/buffer.rs:201-208. -/
def withLimit (extra : Nat → Nat) (limit : Nat) : GrowingBuffer I := ⟨[], 0, 0, limit, 0, extra, 0⟩

/-- `GrowingBuffer::new`, src/buffer/buffer.rs:189-191. -/
def new (extra : Nat → Nat) : GrowingBuffer I := withLimit extra 0

/-- `Vec::reserve` on the backing memory: nothing if there is room behind `len()`, "capacity
overflow" beyond `isize::MAX`, otherwise a larger allocation. Allocation failure (which aborts) and
item sizes other than one byte for the limit are not modelled; for zero sized items see
`Model/ZeroSized.lean`. -/
def reserve (items : Nat) (b : GrowingBuffer I) : Res (GrowingBuffer I) :=
  if b.buffer.length + items ≤ b.cap then .ok b
  else if b.buffer.length + items ≤ isizeMax then
    .ok { b with
      cap := min isizeMax (b.buffer.length + items + b.extra b.allocs), allocs := b.allocs + 1 }
  else .panic

/-- `Vec::set_len`: undefined behaviour beyond the capacity; new cells are uninitialised. -/
def setLen (n : Nat) (b : GrowingBuffer I) : Res (GrowingBuffer I) :=
  if n ≤ b.cap then
    .ok { b with buffer := b.buffer.take n ++ List.replicate (n - b.buffer.length) none }
  else .ub

/-- `deref`, src/buffer/buffer.rs:215-217. -/
def deref (b : GrowingBuffer I) : Res (List I) := subslice b.buffer b.used b.populated

/-- `fill`, src/buffer/buffer.rs:229-237. -/
def fill [DataSource S I] (chk : Bool) (s : S) (b : GrowingBuffer I) :
    Res (Except IoError Nat × S × GrowingBuffer I) :=
  if b.populated ≤ b.buffer.length then
    let (out, s') := DataSource.read s (b.buffer.length - b.populated)
    let b := { b with
      buffer := b.buffer.take b.populated ++ overlay (b.buffer.drop b.populated) out.writes }
    match out.result with
    | .error e => .ok (.error e, s', b)
    | .ok n => do
      debugAssert chk (b.populated + n ≤ b.buffer.length)
      let p ← uaddB chk b.populated n
      .ok (.ok n, s', { b with populated := p })
  else .panic

/-- `len`, src/buffer/buffer.rs:281-283. -/
def len (chk : Bool) (b : GrowingBuffer I) : Res Nat := usubB chk b.populated b.used

/-- `request_space`, src/buffer/buffer.rs:240-271. -/
def requestSpace (chk : Bool) (items : Nat) (b : GrowingBuffer I) : Res (GrowingBuffer I) := do
  if b.limit ≠ 0 ∧ b.cap > b.limit then .ok b
  else
    let l ← len chk b
    let need ← uaddB chk items l
    let b ←
      if need > b.cap then do
        let b ← reserve items b
        setLen b.cap b
      else .ok b
    let free ← usubB chk b.buffer.length b.populated
    if free < items then
      let count ← usubB chk b.populated b.used
      let mem ← ptrCopy b.buffer b.used count
      let p ← usubB chk b.populated b.used
      .ok { b with buffer := mem, populated := p, used := 0 }
    else .ok b

/-- `consume`, src/buffer/buffer.rs:274-278. -/
def consume (chk : Bool) (items : Nat) (b : GrowingBuffer I) : Res (GrowingBuffer I) := do
  debugAssert chk (b.used + items ≤ b.populated)
  let u ← uaddB chk b.used items
  .ok { b with used := u }

/-- `capacity`, src/buffer/buffer.rs:286-288. It is the length, not the capacity, of the `Vec`. -/
def capacity (b : GrowingBuffer I) : Nat := b.buffer.length

instance : Buffer (GrowingBuffer I) I where
  deref := deref
  fill := fill
  requestSpace := requestSpace
  consume := consume
  len := len
  capacity := capacity

end GrowingBuffer

end Chomp
