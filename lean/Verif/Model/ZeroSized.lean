import Verif.Model.Buffer

/-
`GrowingBuffer` with items which have no size, such as `()` or the variants of an enumeration with one of
them. The code is that of /repo/src/buffer/buffer.rs lines 171-289; what is different is `Vec`, whose
`capacity()` is `usize::MAX` for such items, from the beginning and without any allocation.
-/

namespace Chomp

/-- `GrowingBuffer<I>`, src/buffer/buffer.rs:176-187, for items without a size. The memory is a `List` of
items still, as their number is what counts. -/
structure ZeroBuffer (I : Type) where
  inner : GrowingBuffer I

namespace ZeroBuffer

/-- `GrowingBuffer::with_limit`, src/buffer/buffer.rs:201-208. `extra` does not matter: there are no
allocations. -/
def withLimit (limit : Nat) : ZeroBuffer I :=
  ⟨{ (GrowingBuffer.withLimit (fun _ => 0) limit : GrowingBuffer I) with cap := usizeMax }⟩

/-- `Buffer for GrowingBuffer`, src/buffer/buffer.rs:227-289: the same code. -/
instance zeroBuffer : Buffer (ZeroBuffer I) I where
  deref b := b.inner.deref
  fill chk s b := do
    let (r, s, b) ← b.inner.fill chk s
    .ok (r, s, ⟨b⟩)
  requestSpace chk n b := do
    let b ← b.inner.requestSpace chk n
    .ok ⟨b⟩
  consume chk n b := do
    let b ← b.inner.consume chk n
    .ok ⟨b⟩
  len chk b := b.inner.len chk
  capacity b := b.inner.capacity

end ZeroBuffer

end Chomp
