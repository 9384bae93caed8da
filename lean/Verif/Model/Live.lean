import Verif.Model.Stream

/-
Data sources which do something. In the rest of the model a data source is a function which keeps its state
to itself; here `read` is any computation on a state `σ`, which is also that of the closures of the parsers: it may
change it, panic, or not return. The same for iterators.

These are the functions of `Model/Buffer.lean` and `Model/Stream.lean` which call a data source, once more. C119
shows how they are related.
-/

namespace Chomp

/-- `DataSource`, src/buffer/data_source.rs:6-22. As in `Model/Buffer.lean`, `read` gets the length of the slice
only. -/
class LiveSource (σ S : Type) (I : outParam Type) where
  read : S → Nat → M σ (ReadOut I × S)

/-- `Iterator`. -/
class LiveIter (σ J : Type) (I : outParam Type) where
  next : J → M σ (Option I × J)

/-- The loop of `IteratorDataSource::read`, src/buffer/data_source.rs:78-86; see `iterRead`. -/
def iterReadLive [LiveIter σ J I] : Nat → J → M σ (List I × J)
  | 0, j => pure ([], j)
  | k + 1, j => do
    match ← LiveIter.next j with
    | (some x, j) => do
      let (xs, j) ← iterReadLive k j
      pure (x :: xs, j)
    | (none, j) => pure ([], j)

/-- `IteratorDataSource::read`, src/buffer/data_source.rs:72-90. -/
instance liveIterator [LiveIter σ J I] : LiveSource σ (IteratorDataSource J) I where
  read s k := do
    let (xs, j) ← iterReadLive k s.inner
    pure (⟨xs.map some, .ok xs.length⟩, ⟨j⟩)

/-- `ReadDataSource::read`, src/buffer/data_source.rs:43-50. -/
instance liveReader [LiveSource σ R UInt8] : LiveSource σ (ReadDataSource R) UInt8 where
  read s k := do
    let (out, r) ← LiveSource.read s.inner k
    pure (out, ⟨r⟩)

/-- `Buffer::fill`, src/buffer/buffer.rs:15-55. -/
class LiveBuffer (B : Type) (I : outParam Type) where
  fill {σ S : Type} [LiveSource σ S I] (chk : Bool) : S → B → M σ (Except IoError Nat × S × B)

/-- `FixedSizeBuffer::fill`, src/buffer/buffer.rs:122-130. -/
def FixedSizeBuffer.fillLive [LiveSource σ S I] (chk : Bool) (s : S) (b : FixedSizeBuffer I) :
    M σ (Except IoError Nat × S × FixedSizeBuffer I) := do
  if b.populated ≤ b.buffer.length then
    let (out, s) ← LiveSource.read s (b.buffer.length - b.populated)
    let b := { b with
      buffer := b.buffer.take b.populated ++ overlay (b.buffer.drop b.populated) out.writes }
    match out.result with
    | .error e => pure (.error e, s, b)
    | .ok n => do
      M.lift (debugAssert chk (b.populated + n ≤ b.buffer.length))
      let p ← M.lift (uaddB chk b.populated n)
      pure (.ok n, s, { b with populated := p })
  else M.panic

/-- `GrowingBuffer::fill`, src/buffer/buffer.rs:229-237. -/
def GrowingBuffer.fillLive [LiveSource σ S I] (chk : Bool) (s : S) (b : GrowingBuffer I) :
    M σ (Except IoError Nat × S × GrowingBuffer I) := do
  if b.populated ≤ b.buffer.length then
    let (out, s) ← LiveSource.read s (b.buffer.length - b.populated)
    let b := { b with
      buffer := b.buffer.take b.populated ++ overlay (b.buffer.drop b.populated) out.writes }
    match out.result with
    | .error e => pure (.error e, s, b)
    | .ok n => do
      M.lift (debugAssert chk (b.populated + n ≤ b.buffer.length))
      let p ← M.lift (uaddB chk b.populated n)
      pure (.ok n, s, { b with populated := p })
  else M.panic

instance : LiveBuffer (FixedSizeBuffer I) I := ⟨FixedSizeBuffer.fillLive⟩
instance : LiveBuffer (GrowingBuffer I) I := ⟨GrowingBuffer.fillLive⟩

namespace Source

variable {σ S B I : Type} [LiveSource σ S I] [Buffer B I] [LiveBuffer B I]

/-- One turn of the `while` loop of `fill_requested`, src/buffer/stateful.rs:91-96. -/
def fillStepLive (chk : Bool) (request : Nat) (x : S × B × Nat) :
    M σ ((S × B × Nat) ⊕ (Except IoError Nat × S × B)) := do
  let (source, buffer, read) := x
  let l ← M.lift (Buffer.len chk buffer)
  if l < request then
    match ← LiveBuffer.fill chk source buffer with
    | (.error e, source, buffer) => pure (.inr (.error e, source, buffer))
    | (.ok 0, source, buffer) => pure (.inr (.ok read, source, buffer))
    | (.ok n, source, buffer) => do
      let read ← M.lift (uaddB chk read n)
      pure (.inl (source, buffer, read))
  else pure (.inr (.ok read, source, buffer))

/-- `fill_requested`, src/buffer/stateful.rs:81-101. -/
def fillRequestedLive (chk : Bool) (request : Nat) (s : Source S B) :
    M σ (Except IoError Nat × Source S B) := do
  let l ← M.lift (Buffer.len chk s.buffer)
  if l < request then
    let diff ← M.lift (usubB chk request l)
    let b ← M.lift (Buffer.requestSpace chk diff s.buffer)
    let (r, source, buffer) ← loop (fillStepLive chk request) (s.source, b, 0)
    pure (r, { s with source := source, buffer := buffer })
  else pure (.ok 0, s)

/-- `fill`, src/buffer/stateful.rs:105-120. -/
def fillLive (chk : Bool) (s : Source S B) : M σ (Except IoError Nat × Source S B) := do
  let req := max 1 s.request
  let (r, s) ← fillRequestedLive chk req s
  match r with
  | .error e => pure (.error e, s)
  | .ok n => do
    let l ← M.lift (Buffer.len chk s.buffer)
    pure (.ok n, { s with state :=
      { s.state with incomplete := false, endOfInput := !decide (l ≥ req) } })

/-- `io::Read::read`, src/buffer/stateful.rs:172-182. -/
def readLive (chk : Bool) (k : Nat) (s : Source S B) : M σ (Except IoError (List I) × Source S B) := do
  let l ← M.lift (s.len chk)
  let (r, s) ← if k > l then fillRequestedLive chk k s else pure (.ok 0, s)
  match r with
  | .error e => pure (.error e, s)
  | .ok _ => do
    let data ← M.lift (Buffer.deref s.buffer)
    let b ← M.lift (Buffer.consume chk (min k data.length) s.buffer)
    pure (.ok (data.take (min k data.length)), { s with buffer := b })

/-- `io::BufRead::fill_buf`, src/buffer/stateful.rs:187-193. -/
def fillBufLive (chk : Bool) (s : Source S B) : M σ (Except IoError (List I) × Source S B) := do
  let cap := Buffer.capacity s.buffer
  let (r, s) ← fillRequestedLive chk cap s
  match r with
  | .error e => pure (.error e, s)
  | .ok _ => do
    let data ← M.lift (Buffer.deref s.buffer)
    pure (.ok data, s)

/-- `parse`, src/buffer/stateful.rs:206-246. The source and the parser work on the same state. -/
def parseLive (chk : Bool) (f : Parser σ I T E) (s : Source S B) :
    M σ (Except (StreamError I E) T × Source S B) := do
  let (r, s) ←
    if s.state.incomplete && s.state.automaticFill then fillLive chk s
    else pure (.ok 0, s)
  match r with
  | .error e => pure (.error (.ioError e), s)
  | .ok _ =>
    if ← M.lift (s.isEmpty chk) then
      pure (.error .endOfInput, s)
    else
      let mode := if s.state.endOfInput then Mode.endOfInput else Mode.default
      let b ← M.lift (Buffer.deref s.buffer)
      match ← f ⟨mode, b⟩ with
      | .data remainder data =>
        let l ← M.lift (Buffer.len chk s.buffer)
        let d ← M.lift (usubB chk l remainder.buf.length)
        let b ← M.lift (Buffer.consume chk d s.buffer)
        pure (.ok data, { s with buffer := b })
      | .error remainder err =>
        let l ← M.lift (Buffer.len chk s.buffer)
        let d ← M.lift (usubB chk l remainder.length)
        let b ← M.lift (Buffer.consume chk d s.buffer)
        pure (.error (.parseError remainder err), { s with buffer := b })
      | .incomplete n =>
        let l ← M.lift (Buffer.len chk s.buffer)
        let request ← M.lift (uaddB chk l n)
        let s := { s with request := request }
        if s.state.endOfInput then
          pure (.error (.incomplete request), s)
        else
          pure (.error .retry, { s with state := { s.state with incomplete := true } })

end Source

end Chomp
