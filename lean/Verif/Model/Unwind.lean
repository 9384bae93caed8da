import Verif.Model.Stream

/-
What a panic leaves behind. In the rest of the model a panic is the end; here everything behind `&mut`
keeps the state it has when the panic happens, so that a caller who catches it
(`std::panic::catch_unwind`) can go on. Data sources and parsers may panic.

These are the functions of `Model/Buffer.lean` and `Model/Stream.lean` which change something, once more,
statement by statement. C84 says that they agree with those.
-/

namespace Chomp

/-- Code working on a state `St` behind `&mut`. It returns a value, or panics (`none`); both leave a
state. The outcome `panic` of `Res` is not used. -/
def U (St α : Type) : Type := St → Res (Option α × St)

namespace U

variable {St α β A R : Type}

def pure (a : α) : U St α := fun s => .ok (some a, s)

def bind (x : U St α) (f : α → U St β) : U St β := fun s =>
  match x s with
  | .ok (some a, s') => f a s'
  | .ok (none, s') => .ok (none, s')
  | .panic => .panic
  | .ub => .ub
  | .div => .div

instance : Monad (U St) where
  pure := pure
  bind := bind

/-- Read the state. -/
def get : U St St := fun s => .ok (some s, s)

/-- Assign to the state. -/
def set (s : St) : U St Unit := fun _ => .ok (some (), s)

/-- `panic!()`. Nothing happens to the state. -/
def panic : U St α := fun s => .ok (none, s)

/-- Code which changes nothing. -/
def look (x : Res α) : U St α := fun s =>
  match x with
  | .ok a => .ok (some a, s)
  | .panic => .ok (none, s)
  | .ub => .ub
  | .div => .div

/-- Code working on a part of the state. -/
def zoom {St P α : Type} (part : St → P) (put : St → P → St) (x : U P α) : U St α := fun s =>
  match x (part s) with
  | .ok (r, t) => .ok (r, put s t)
  | .panic => .panic
  | .ub => .ub
  | .div => .div

/-- `loop { ... }`, see `Chomp.loop`. -/
def loop (step : A → U St (A ⊕ R)) (a : A) : U St R :=
  Chomp.loop (fun a s =>
    match step a s with
    | .ok (some (.inl a'), s') => .ok (.inl a', s')
    | .ok (some (.inr r), s') => .ok (.inr (some r), s')
    | .ok (none, s') => .ok (.inr none, s')
    | .panic => .panic
    | .ub => .ub
    | .div => .div) a

end U

/-! ### Data sources and buffers -/

/-- What a call of `read` did: the cells it wrote and what it returned, or that it panicked. -/
structure UReadOut (I : Type) where
  writes : List (Option I)
  result : Option (Except IoError Nat)

/-- `DataSource`, src/buffer/data_source.rs:6-22, as in `Model/Buffer.lean`, but it may panic. -/
class UDataSource (S : Type) (I : outParam Type) where
  read : S → Nat → UReadOut I × S

/-- An iterator which may panic, and what it leaves behind then. -/
class UIter (J : Type) (I : outParam Type) where
  next : J → Option (Option I) × J

/-- The loop of `IteratorDataSource::read`, src/buffer/data_source.rs:78-86; see `iterRead`. Yields the
items stored and whether it returned. -/
def iterReadU [UIter J I] : Nat → J → List I × Bool × J
  | 0, j => ([], true, j)
  | k + 1, j =>
    match UIter.next j with
    | (some (some x), j') =>
      let (xs, b, j'') := iterReadU k j'
      (x :: xs, b, j'')
    | (some none, j') => ([], true, j')
    | (none, j') => ([], false, j')

/-- `IteratorDataSource::read`, src/buffer/data_source.rs:72-90. -/
instance unwindIterator [UIter J I] : UDataSource (IteratorDataSource J) I where
  read s k :=
    let (xs, b, j) := iterReadU k s.inner
    (⟨xs.map some, if b then some (.ok xs.length) else none⟩, ⟨j⟩)

/-- `ReadDataSource::read`, src/buffer/data_source.rs:43-50. -/
instance unwindReader [UDataSource R UInt8] : UDataSource (ReadDataSource R) UInt8 where
  read s k :=
    let (out, r) := UDataSource.read s.inner k
    (out, ⟨r⟩)

/-- The methods of `Buffer` which change something, src/buffer/buffer.rs:15-55. -/
class UBuffer (B : Type) (I : outParam Type) where
  fill {S : Type} [UDataSource S I] (chk : Bool) : U (S × B) (Except IoError Nat)
  requestSpace (chk : Bool) (items : Nat) : U B Unit
  consume (chk : Bool) (items : Nat) : U B Unit

namespace FixedSizeBuffer

/-- `fill`, src/buffer/buffer.rs:122-130. -/
def fillU [UDataSource S I] (chk : Bool) : U (S × FixedSizeBuffer I) (Except IoError Nat) := do
  let (s, b) ← U.get
  if b.populated ≤ b.buffer.length then
    let (out, s') := UDataSource.read s (b.buffer.length - b.populated)
    let b := { b with
      buffer := b.buffer.take b.populated ++ overlay (b.buffer.drop b.populated) out.writes }
    U.set (s', b)
    match out.result with
    | none => U.panic
    | some (.error e) => U.pure (.error e)
    | some (.ok n) => do
      U.look (debugAssert chk (b.populated + n ≤ b.buffer.length))
      let p ← U.look (uaddB chk b.populated n)
      U.set (s', { b with populated := p })
      U.pure (.ok n)
  else U.panic

/-- `request_space`, src/buffer/buffer.rs:133-147. -/
def requestSpaceU (chk : Bool) (items : Nat) : U (FixedSizeBuffer I) Unit := do
  let b ← U.get
  U.look (assert (b.populated ≥ b.used))
  let free ← U.look (usubB chk b.buffer.length b.populated)
  if free < items then
    let count ← U.look (usubB chk b.populated b.used)
    let mem ← U.look (ptrCopy b.buffer b.used count)
    U.set { b with buffer := mem }
    let p ← U.look (usubB chk b.populated b.used)
    U.set { b with buffer := mem, populated := p }
    U.set { b with buffer := mem, populated := p, used := 0 }
  else U.pure ()

/-- `consume`, src/buffer/buffer.rs:150-154. -/
def consumeU (chk : Bool) (items : Nat) : U (FixedSizeBuffer I) Unit := do
  let b ← U.get
  U.look (debugAssert chk (b.used + items ≤ b.populated))
  let u ← U.look (uaddB chk b.used items)
  U.set { b with used := u }

instance : UBuffer (FixedSizeBuffer I) I where
  fill := fillU
  requestSpace := requestSpaceU
  consume := consumeU

end FixedSizeBuffer

namespace GrowingBuffer

/-- `fill`, src/buffer/buffer.rs:229-237. -/
def fillU [UDataSource S I] (chk : Bool) : U (S × GrowingBuffer I) (Except IoError Nat) := do
  let (s, b) ← U.get
  if b.populated ≤ b.buffer.length then
    let (out, s') := UDataSource.read s (b.buffer.length - b.populated)
    let b := { b with
      buffer := b.buffer.take b.populated ++ overlay (b.buffer.drop b.populated) out.writes }
    U.set (s', b)
    match out.result with
    | none => U.panic
    | some (.error e) => U.pure (.error e)
    | some (.ok n) => do
      U.look (debugAssert chk (b.populated + n ≤ b.buffer.length))
      let p ← U.look (uaddB chk b.populated n)
      U.set (s', { b with populated := p })
      U.pure (.ok n)
  else U.panic

/-- The part of `request_space` which allocates, src/buffer/buffer.rs:246-260. -/
def growU (chk : Bool) (items : Nat) : U (GrowingBuffer I) Unit := do
  let b ← U.get
  let l ← U.look (len chk b)
  let need ← U.look (uaddB chk items l)
  if need > b.cap then do
    let b ← U.look (reserve items b)
    U.set b
    let b ← U.look (setLen b.cap b)
    U.set b
  else U.pure ()

/-- The part of `request_space` which moves the contents, src/buffer/buffer.rs:262-270. -/
def moveU (chk : Bool) (items : Nat) : U (GrowingBuffer I) Unit := do
  let b ← U.get
  let free ← U.look (usubB chk b.buffer.length b.populated)
  if free < items then
    let count ← U.look (usubB chk b.populated b.used)
    let mem ← U.look (ptrCopy b.buffer b.used count)
    U.set { b with buffer := mem }
    let p ← U.look (usubB chk b.populated b.used)
    U.set { b with buffer := mem, populated := p }
    U.set { b with buffer := mem, populated := p, used := 0 }
  else U.pure ()

/-- `request_space`, src/buffer/buffer.rs:240-271. -/
def requestSpaceU (chk : Bool) (items : Nat) : U (GrowingBuffer I) Unit := do
  let b ← U.get
  if b.limit ≠ 0 ∧ b.cap > b.limit then U.pure ()
  else do
    growU chk items
    moveU chk items

/-- `consume`, src/buffer/buffer.rs:274-278. -/
def consumeU (chk : Bool) (items : Nat) : U (GrowingBuffer I) Unit := do
  let b ← U.get
  U.look (debugAssert chk (b.used + items ≤ b.populated))
  let u ← U.look (uaddB chk b.used items)
  U.set { b with used := u }

instance : UBuffer (GrowingBuffer I) I where
  fill := fillU
  requestSpace := requestSpaceU
  consume := consumeU

end GrowingBuffer

/-! ### Streams -/

/-- A parser which may panic, and the state captured by its closures then. -/
def UParser (σ I T E : Type) : Type := Input I → U σ (ParseResult I T E)

namespace Source

variable {S B I : Type} [UDataSource S I] [Buffer B I] [UBuffer B I]

/-- A method called on `self.buffer`. -/
def onBuffer (x : U B α) : U (Source S B) α :=
  U.zoom (fun s => s.buffer) (fun s b => { s with buffer := b }) x

/-- `self.buffer.fill(&mut self.source)` -/
def fillBufferU (chk : Bool) : U (Source S B) (Except IoError Nat) :=
  U.zoom (fun s => (s.source, s.buffer)) (fun s x => { s with source := x.1, buffer := x.2 })
    (UBuffer.fill chk)

/-- One turn of the `while` loop of `fill_requested`, src/buffer/stateful.rs:91-96. -/
def fillStepU (chk : Bool) (request : Nat) (read : Nat) :
    U (Source S B) (Nat ⊕ Except IoError Nat) := do
  let s ← U.get
  let l ← U.look (Buffer.len chk s.buffer)
  if l < request then
    match ← fillBufferU chk with
    | .error e => U.pure (.inr (.error e))
    | .ok 0 => U.pure (.inr (.ok read))
    | .ok n => do
      let read ← U.look (uaddB chk read n)
      U.pure (.inl read)
  else U.pure (.inr (.ok read))

/-- `fill_requested`, src/buffer/stateful.rs:81-101. -/
def fillRequestedU (chk : Bool) (request : Nat) : U (Source S B) (Except IoError Nat) := do
  let s ← U.get
  let l ← U.look (Buffer.len chk s.buffer)
  if l < request then
    let diff ← U.look (usubB chk request l)
    onBuffer (UBuffer.requestSpace chk diff)
    U.loop (fillStepU chk request) 0
  else U.pure (.ok 0)

/-- `fill`, src/buffer/stateful.rs:105-120. -/
def fillU (chk : Bool) : U (Source S B) (Except IoError Nat) := do
  let s ← U.get
  let req := max 1 s.request
  match ← fillRequestedU chk req with
  | .error e => U.pure (.error e)
  | .ok n => do
    let s ← U.get
    U.set { s with state := { s.state with incomplete := false } }
    let l ← U.look (Buffer.len chk s.buffer)
    U.set { s with state := { s.state with incomplete := false, endOfInput := !decide (l ≥ req) } }
    U.pure (.ok n)

/-- `io::Read::read`, src/buffer/stateful.rs:172-182. -/
def readU (chk : Bool) (k : Nat) : U (Source S B) (Except IoError (List I)) := do
  let s ← U.get
  let l ← U.look (s.len chk)
  match ← (if k > l then fillRequestedU chk k else U.pure (.ok 0)) with
  | .error e => U.pure (.error e)
  | .ok _ => do
    let s ← U.get
    let data ← U.look (Buffer.deref s.buffer)
    onBuffer (UBuffer.consume chk (min k data.length))
    U.pure (.ok (data.take (min k data.length)))

/-- `io::BufRead::fill_buf`, src/buffer/stateful.rs:187-193. -/
def fillBufU (chk : Bool) : U (Source S B) (Except IoError (List I)) := do
  let s ← U.get
  let cap := Buffer.capacity s.buffer
  match ← fillRequestedU chk cap with
  | .error e => U.pure (.error e)
  | .ok _ => do
    let s ← U.get
    let data ← U.look (Buffer.deref s.buffer)
    U.pure (.ok data)

/-- `io::BufRead::consume`, src/buffer/stateful.rs:196-198. -/
def consumeU (chk : Bool) (num : Nat) : U (Source S B) Unit :=
  onBuffer (UBuffer.consume chk num)

/-- What `parse` does with the result of the parser, src/buffer/stateful.rs:222-244. -/
def settleU (chk : Bool) : ParseResult I T E → U (Source S B) (Except (StreamError I E) T)
  | .data remainder data => do
    let s ← U.get
    let l ← U.look (Buffer.len chk s.buffer)
    let d ← U.look (usubB chk l remainder.buf.length)
    onBuffer (UBuffer.consume chk d)
    U.pure (.ok data)
  | .error remainder err => do
    let s ← U.get
    let l ← U.look (Buffer.len chk s.buffer)
    let d ← U.look (usubB chk l remainder.length)
    onBuffer (UBuffer.consume chk d)
    U.pure (.error (.parseError remainder err))
  | .incomplete n => do
    let s ← U.get
    let l ← U.look (Buffer.len chk s.buffer)
    let request ← U.look (uaddB chk l n)
    let s := { s with request := request }
    U.set s
    if s.state.endOfInput then
      U.pure (.error (.incomplete request))
    else do
      U.set { s with state := { s.state with incomplete := true } }
      U.pure (.error .retry)

/-- The part of `parse` after the automatic `fill`, src/buffer/stateful.rs:215-244. -/
def attemptU (chk : Bool) (f : UParser σ I T E) : U (Source S B × σ) (Except (StreamError I E) T) := do
  let (s, _) ← U.get
  if ← U.look (s.isEmpty chk) then
    U.pure (.error .endOfInput)
  else do
    let mode := if s.state.endOfInput then Mode.endOfInput else Mode.default
    let b ← U.look (Buffer.deref s.buffer)
    let r ← U.zoom Prod.snd (fun x w => (x.1, w)) (f ⟨mode, b⟩)
    U.zoom Prod.fst (fun x s => (s, x.2)) (settleU chk r)

/-- `parse`, src/buffer/stateful.rs:206-246. The state is that of the source and that captured by the
parser. -/
def parseU (chk : Bool) (f : UParser σ I T E) : U (Source S B × σ) (Except (StreamError I E) T) := do
  let (s, _) ← U.get
  match ← (if s.state.incomplete && s.state.automaticFill then
      U.zoom Prod.fst (fun x s => (s, x.2)) (fillU chk)
    else U.pure (.ok 0)) with
  | .error e => U.pure (.error (.ioError e))
  | .ok _ => attemptU chk f

end Source

/-- `SliceStream::parse`, src/buffer/slice.rs:85-109. -/
def SliceStream.parseU (chk : Bool) (f : UParser σ I T E) :
    U (SliceStream I × σ) (Except (StreamError I E) T) := do
  let (s, _) ← U.get
  if ← U.look (s.isEmpty chk) then
    U.pure (.error .endOfInput)
  else do
    let b ← U.look (if s.pos ≤ s.slice.length then .ok (s.slice.drop s.pos) else .panic)
    match ← U.zoom Prod.snd (fun x w => (x.1, w)) (f ⟨.endOfInput, b⟩) with
    | .data remainder data => do
      let l ← U.look (s.len chk)
      let d ← U.look (usubB chk l remainder.buf.length)
      let pos ← U.look (uaddB chk s.pos d)
      let (s, w) ← U.get
      U.set ({ s with pos := pos }, w)
      U.pure (.ok data)
    | .error remainder err => do
      let l ← U.look (s.len chk)
      let d ← U.look (usubB chk l remainder.length)
      let pos ← U.look (uaddB chk s.pos d)
      let (s, w) ← U.get
      U.set ({ s with pos := pos }, w)
      U.pure (.error (.parseError remainder err))
    | .incomplete n => do
      let l ← U.look (s.len chk)
      let n ← U.look (uaddB chk n l)
      U.pure (.error (.incomplete n))

end Chomp
