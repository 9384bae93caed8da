import Verif.Model.Basic
import Verif.Model.Buffer

/-
Model of /repo/src/buffer/mod.rs, /repo/src/buffer/slice.rs and /repo/src/buffer/stateful.rs.

`chk` as in Verif/Model/Buffer.lean. Methods taking `&mut self` return the new `self`.
-/

namespace Chomp

/-! ### StreamError -/

/-- `StreamError`, src/buffer/mod.rs:52-66. -/
inductive StreamError (I E : Type) where
  | parseError (b : List I) (e : E)
  | incomplete (n : Nat)
  | ioError (e : IoError)
  | endOfInput
  | retry
deriving DecidableEq, Repr

namespace StreamError

/-- `PartialEq::eq`, src/buffer/mod.rs:68-80. -/
def eq [BEq I] [BEq E] : StreamError I E → StreamError I E → Bool
  | .parseError b1 e1, .parseError b2 e2 => b1 == b2 && e1 == e2
  | .incomplete n1, .incomplete n2 => n1 == n2
  | .endOfInput, .endOfInput => true
  | .retry, .retry => true
  | _, _ => false

/-- `From<ParseError>`, src/buffer/mod.rs:82-90. -/
def ofParseError : ParseError I E → StreamError I E
  | .error b e => .parseError b e
  | .incomplete n => .incomplete n

end StreamError

/-! ### SliceStream -/

/-- `SliceStream`, src/buffer/slice.rs:43-46. -/
structure SliceStream (I : Type) where
  pos : Nat
  slice : List I
deriving DecidableEq, Repr

namespace SliceStream

/-- `SliceStream::new` and `into_stream`, src/buffer/slice.rs:51-56, 76-78. -/
def new (s : List I) : SliceStream I := ⟨0, s⟩

/-- `SliceStream::len`, src/buffer/slice.rs:60-62. -/
def len (chk : Bool) (s : SliceStream I) : Res Nat := usubB chk s.slice.length s.pos

/-- `SliceStream::is_empty`, src/buffer/slice.rs:66-68. -/
def isEmpty (chk : Bool) (s : SliceStream I) : Res Bool := do
  let n ← s.len chk
  .ok (n == 0)

/-- `parse`, src/buffer/slice.rs:85-109. -/
def parse (chk : Bool) (f : Parser σ I T E) (s : SliceStream I) :
    M σ (Except (StreamError I E) T × SliceStream I) := do
  if ← M.lift (s.isEmpty chk) then
    pure (.error .endOfInput, s)
  else
    let b ← sliceFrom s.slice s.pos
    match ← f ⟨.endOfInput, b⟩ with
    | .data remainder data =>
      let l ← M.lift (s.len chk)
      let d ← M.lift (usubB chk l remainder.buf.length)
      let pos ← M.lift (uaddB chk s.pos d)
      pure (.ok data, { s with pos := pos })
    | .error remainder err =>
      let l ← M.lift (s.len chk)
      let d ← M.lift (usubB chk l remainder.length)
      let pos ← M.lift (uaddB chk s.pos d)
      pure (.error (.parseError remainder err), { s with pos := pos })
    | .incomplete n =>
      let l ← M.lift (s.len chk)
      let n ← M.lift (uaddB chk n l)
      pure (.error (.incomplete n), s)

end SliceStream

/-! ### Source -/

/-- `ParserState`, src/buffer/stateful.rs:17-28. -/
structure Flags where
  incomplete : Bool
  endOfInput : Bool
  automaticFill : Bool
deriving DecidableEq, Repr

/-- `Source`, src/buffer/stateful.rs:32-41. -/
structure Source (S B : Type) where
  source : S
  buffer : B
  request : Nat
  state : Flags

namespace Source

variable {S B I : Type} [DataSource S I] [Buffer B I]

/-- `Source::with_buffer`, src/buffer/stateful.rs:70-77. -/
def withBuffer (source : S) (buffer : B) : Source S B := ⟨source, buffer, 0, ⟨true, false, true⟩⟩

/-- `Source::new`, src/buffer/stateful.rs:43-49. -/
def new {R : Type} (source : R) : Res (Source (ReadDataSource R) (FixedSizeBuffer UInt8)) := do
  let buffer ← FixedSizeBuffer.new
  .ok (withBuffer ⟨source⟩ buffer)

/-- `Source::from_read`, src/buffer/stateful.rs:51-57. -/
def fromRead {R B : Type} (source : R) (buffer : B) : Source (ReadDataSource R) B :=
  withBuffer ⟨source⟩ buffer

/-- `Source::from_iter`, src/buffer/stateful.rs:59-65. -/
def fromIter {J B : Type} (source : J) (buffer : B) : Source (IteratorDataSource J) B :=
  withBuffer ⟨source⟩ buffer

/-- One turn of the `while` loop of `fill_requested`, src/buffer/stateful.rs:91-96. The loop variables
are the source, the buffer and the number of items read. -/
def fillStep (chk : Bool) (request : Nat) (x : S × B × Nat) :
    M Unit ((S × B × Nat) ⊕ (Except IoError Nat × S × B)) := do
  let (source, buffer, read) := x
  let l ← M.lift (Buffer.len chk buffer)
  if l < request then
    match ← M.lift (Buffer.fill chk source buffer) with
    | (.error e, source, buffer) => pure (.inr (.error e, source, buffer))
    | (.ok 0, source, buffer) => pure (.inr (.ok read, source, buffer))
    | (.ok n, source, buffer) => do
      let read ← M.lift (uaddB chk read n)
      pure (.inl (source, buffer, read))
  else pure (.inr (.ok read, source, buffer))

/-- `fill_requested`, src/buffer/stateful.rs:81-101. -/
def fillRequested (chk : Bool) (request : Nat) (s : Source S B) :
    Res (Except IoError Nat × Source S B) := do
  let l ← Buffer.len chk s.buffer
  if l < request then
    let diff ← usubB chk request l
    let b ← Buffer.requestSpace chk diff s.buffer
    let ((r, source, buffer), _) ← loop (fillStep chk request) (s.source, b, 0) ()
    .ok (r, { s with source := source, buffer := buffer })
  else .ok (.ok 0, s)

/-- `fill`, src/buffer/stateful.rs:105-120. -/
def fill (chk : Bool) (s : Source S B) : Res (Except IoError Nat × Source S B) := do
  let req := max 1 s.request
  let (r, s) ← fillRequested chk req s
  match r with
  | .error e => .ok (.error e, s)
  | .ok n =>
    let l ← Buffer.len chk s.buffer
    .ok (.ok n, { s with state :=
      { s.state with incomplete := false, endOfInput := !decide (l ≥ req) } })

/-- `len`, src/buffer/stateful.rs:124-126. -/
def len (chk : Bool) (s : Source S B) : Res Nat := Buffer.len chk s.buffer

/-- `is_empty`, src/buffer/stateful.rs:130-132. -/
def isEmpty (chk : Bool) (s : Source S B) : Res Bool :=
  if s.state.endOfInput then do
    let l ← s.len chk
    .ok (l == 0)
  else .ok false

/-- `capacity`, src/buffer/stateful.rs:138-140. -/
def capacity (s : Source S B) : Nat := Buffer.capacity s.buffer

/-- `buffer`, src/buffer/stateful.rs:144-146. -/
def bufferSlice (s : Source S B) : Res (List I) := Buffer.deref s.buffer

/-- `reset`, src/buffer/stateful.rs:153-155. -/
def reset (s : Source S B) : Source S B := { s with state := ⟨false, false, false⟩ }

/-- `set_autofill`, src/buffer/stateful.rs:161-167. -/
def setAutofill (value : Bool) (s : Source S B) : Source S B :=
  { s with state := { s.state with automaticFill := value } }

/-- `io::Read::read`, src/buffer/stateful.rs:172-182. `k` is the length of the slice given; the items
stored in it are returned. `io::Read for &[u8]` copies `min` of both lengths. The type of items is not
restricted to bytes here. -/
def read (chk : Bool) (k : Nat) (s : Source S B) : Res (Except IoError (List I) × Source S B) := do
  let l ← s.len chk
  let (r, s) ← if k > l then fillRequested chk k s else .ok (.ok 0, s)
  match r with
  | .error e => .ok (.error e, s)
  | .ok _ =>
    let data ← Buffer.deref s.buffer
    let b ← Buffer.consume chk (min k data.length) s.buffer
    .ok (.ok (data.take (min k data.length)), { s with buffer := b })

/-- `io::BufRead::fill_buf`, src/buffer/stateful.rs:187-193. -/
def fillBuf (chk : Bool) (s : Source S B) : Res (Except IoError (List I) × Source S B) := do
  let cap := Buffer.capacity s.buffer
  let (r, s) ← fillRequested chk cap s
  match r with
  | .error e => .ok (.error e, s)
  | .ok _ =>
    let data ← Buffer.deref s.buffer
    .ok (.ok data, s)

/-- `io::BufRead::consume`, src/buffer/stateful.rs:196-198. -/
def consume (chk : Bool) (num : Nat) (s : Source S B) : Res (Source S B) := do
  let b ← Buffer.consume chk num s.buffer
  .ok { s with buffer := b }

/-- `parse`, src/buffer/stateful.rs:206-246. -/
def parse (chk : Bool) (f : Parser σ I T E) (s : Source S B) :
    M σ (Except (StreamError I E) T × Source S B) := do
  let (r, s) ←
    if s.state.incomplete && s.state.automaticFill then M.lift (fill chk s)
    else pure (.ok 0, s)
  match r with
  | .error e => pure (.error (.ioError e), s)
  | .ok _ =>
    if ← M.lift (s.isEmpty chk) then
      pure (.error .endOfInput, s)
    else
      let mode := if s.state.endOfInput then Mode.endOfInput else Mode.default
      let b ← M.lift (Buffer.deref s.buffer)
      match ← f ⟨mode, b⟩ with
      | .data remainder data =>
        let l ← M.lift (Buffer.len chk s.buffer)
        let d ← M.lift (usubB chk l remainder.buf.length)
        let b ← M.lift (Buffer.consume chk d s.buffer)
        pure (.ok data, { s with buffer := b })
      | .error remainder err =>
        let l ← M.lift (Buffer.len chk s.buffer)
        let d ← M.lift (usubB chk l remainder.length)
        let b ← M.lift (Buffer.consume chk d s.buffer)
        pure (.error (.parseError remainder err), { s with buffer := b })
      | .incomplete n =>
        let l ← M.lift (Buffer.len chk s.buffer)
        let request ← M.lift (uaddB chk l n)
        let s := { s with request := request }
        if s.state.endOfInput then
          pure (.error (.incomplete request), s)
        else
          pure (.error .retry, { s with state := { s.state with incomplete := true } })

end Source

end Chomp
