import Verif.Model.Buffer

/-
Derived and default methods of the buffers, /repo/src/buffer/buffer.rs.
-/

namespace Chomp

/-- `PartialEq` of the backing `Vec`s, of equal lengths: cells are read until two differ. Reading an
uninitialised one is undefined behaviour. -/
def eqCells (eq : I → I → Bool) : List (Option I) → List (Option I) → Res Bool
  | some x :: a, some y :: b => if eq x y then eqCells eq a b else .ok false
  | none :: _, _ :: _ => .ub
  | _ :: _, none :: _ => .ub
  | _, _ => .ok true

/-- The derived `PartialEq` of `FixedSizeBuffer`, src/buffer/buffer.rs:61. `eq` is that of the items. -/
def FixedSizeBuffer.eq (eq : I → I → Bool) (a b : FixedSizeBuffer I) : Res Bool := do
  if a.buffer.length == b.buffer.length then
    if ← eqCells eq a.buffer b.buffer then
      .ok (a.populated == b.populated && a.used == b.used)
    else .ok false
  else .ok false

/-- The derived `Debug` of `FixedSizeBuffer`, src/buffer/buffer.rs:61, prints these values. -/
def FixedSizeBuffer.debug (b : FixedSizeBuffer I) : Res (List I × Nat × Nat) := do
  let l ← expose b.buffer
  .ok (l, b.populated, b.used)

/-- The derived `Debug` of `GrowingBuffer`, src/buffer/buffer.rs:173, prints these values. -/
def GrowingBuffer.debug (b : GrowingBuffer I) : Res (List I × Nat × Nat × Nat) := do
  let l ← expose b.buffer
  .ok (l, b.populated, b.limit, b.used)

/-- Borrow `&mut mem[a..b]` and write `ws` to it; entry `none` leaves an item as it is. -/
def writeSlice (mem : List (Option I)) (a b : Nat) (ws : List (Option I)) : Res (List (Option I)) := do
  let _ ← subslice mem a b
  .ok (mem.take a ++ overlay ((mem.drop a).take (b - a)) ws ++ mem.drop b)

/-- `deref_mut`, src/buffer/buffer.rs:113-118, and writing `ws` to the slice. -/
def FixedSizeBuffer.derefMut (ws : List (Option I)) (b : FixedSizeBuffer I) : Res (FixedSizeBuffer I) := do
  let mem ← writeSlice b.buffer b.used b.populated ws
  .ok { b with buffer := mem }

/-- `deref_mut`, src/buffer/buffer.rs:220-225, and writing `ws` to the slice. -/
def GrowingBuffer.derefMut (ws : List (Option I)) (b : GrowingBuffer I) : Res (GrowingBuffer I) := do
  let mem ← writeSlice b.buffer b.used b.populated ws
  .ok { b with buffer := mem }

/-- `Buffer::is_empty`, src/buffer/buffer.rs:46-50. -/
def Buffer.isEmpty [Buffer B I] (chk : Bool) (b : B) : Res Bool := do
  let l ← Buffer.len chk b
  .ok (l == 0)

end Chomp
