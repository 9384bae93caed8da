import Verif.Spec.Retry

/-
Buffers which users write themselves, by implementing the trait `Buffer` of /repo/src/buffer/buffer.rs:15-55: what they have
to do, and what is said of a `Source` on top of one. `LawfulBuffer` of Verif/Spec/Buffer.lean says more, namely all that the
buffers of the crate have in common. Definitions only.
-/

namespace Chomp

/-- What a buffer has to do. `view` is what it holds, `Holds b t` says that it can hold `t` items in total after space has been
requested, `Spacious b t` that it can without. `Inv` is its invariant. `fill` may read as often as it likes. -/
class OwnBuffer (B : Type) (I : outParam Type) [Buffer B I] where
  Inv : B → Prop
  view : B → List I
  Holds : B → Nat → Prop
  Spacious : B → Nat → Prop
  size : ∀ {b}, Inv b → (view b).length ≤ usizeMax
  holds_size : ∀ {b t}, Inv b → (view b).length ≤ t → Holds b t → t ≤ usizeMax
  deref : ∀ {b}, Inv b → Buffer.deref b = .ok (view b)
  len : ∀ {b} chk, Inv b → Buffer.len chk b = .ok (view b).length
  consume : ∀ {b n} chk, Inv b → n ≤ (view b).length →
    ∃ b', Buffer.consume chk n b = .ok b' ∧ Inv b' ∧ view b' = (view b).drop n ∧ ∀ t, Holds b t → Holds b' t
  request : ∀ {b} chk n, Inv b → Buffer.requestSpace chk n b = .panic ∨
    ∃ b', Buffer.requestSpace chk n b = .ok b' ∧ Inv b' ∧ view b' = view b ∧ ∀ t, Holds b t → Holds b' t
  request_fits : ∀ {b n} chk, Inv b → Holds b ((view b).length + n) →
    ∃ b', Buffer.requestSpace chk n b = .ok b' ∧ Spacious b' ((view b).length + n)
  /-- All that is read is appended. No more is claimed to have been read; nothing only after a read which found
  nothing (into a slice with room, if there is space), and an error only after a read with this error. -/
  fill : ∀ {S b} [DataSource S I] [HonestSource S I] chk (s : S), Inv b →
    ∃ r s' b' xs, Buffer.fill chk s b = .ok (r, s', b') ∧ Reads s xs s' ∧ Inv b' ∧ view b' = view b ++ xs ∧
      (∀ t, Holds b t → Holds b' t) ∧ (∀ t, Spacious b t → Spacious b' t) ∧
      (∀ n, r = .ok n → n ≤ xs.length) ∧
      (r = .ok 0 → ∀ t, Spacious b t → (view b').length < t → ∃ k, 0 < k ∧ Spec.LastRead s xs k (.ok 0) s') ∧
      (∀ e, r = .error e → ∃ k, Spec.LastRead s xs k (.error e) s')

namespace Own

variable {S B I : Type} [DataSource S I] [Buffer B I] [OwnBuffer B I]

/-- What is in the buffer. -/
def held (s : Source S B) : List I := OwnBuffer.view s.buffer

/-- The buffer's invariant holds. -/
def Usable (s : Source S B) : Prop := OwnBuffer.Inv s.buffer

/-- What a call of `parse` with the parser `p`, returning `r` and leaving `s'`, did to the items `given` which were in the
buffer when the parser was run. -/
def Effect (p : Parser σ I T E) (given : List I) (w : σ) (r : Except (StreamError I E) T) (s' : Source S B) (w' : σ) : Prop :=
  match r with
  | .ok t => p ⟨Spec.modeOf s', given⟩ w = .ok (.data ⟨Spec.modeOf s', held s'⟩ t, w')
  | .error (.parseError b e) => p ⟨Spec.modeOf s', given⟩ w = .ok (.error b e, w') ∧ held s' = b
  | .error (.incomplete _) => Spec.modeOf s' = .endOfInput ∧ held s' = given ∧
      ∃ n, p ⟨.endOfInput, given⟩ w = .ok (.incomplete n, w')
  | .error .retry => Spec.modeOf s' = .default ∧ held s' = given ∧ ∃ n, p ⟨.default, given⟩ w = .ok (.incomplete n, w')
  | .error .endOfInput => Spec.modeOf s' = .endOfInput ∧ given = [] ∧ held s' = [] ∧ w' = w
  | .error (.ioError _) => held s' = given ∧ w' = w

/-- The operations on a `Source` and the items they hand out, as in `Spec.SourceStep`: for `parse` the difference between what
the parser was given and what is left. -/
inductive Step (chk : Bool) : Source S B → σ → List I → Source S B → σ → Prop
  | parse {T E : Type} {s s' : Source S B} {w w' : σ} (p : Parser σ I T E) {r : Except (StreamError I E) T}
      {x : List I} : Spec.Built Spec.everything p → s.parse chk p w = .ok ((r, s'), w') →
      held (Spec.autofilled chk s) = x ++ held s' → Step chk s w x s' w'
  | fill {s s' : Source S B} {w : σ} {r} : s.fill chk = .ok (r, s') → Step chk s w [] s' w
  | read {s s' : Source S B} {w : σ} {xs : List I} (k : Nat) : s.read chk k = .ok (.ok xs, s') → Step chk s w xs s' w
  | readErr {s s' : Source S B} {w : σ} {e} (k : Nat) : s.read chk k = .ok (.error e, s') → Step chk s w [] s' w
  | fillBuf {s s' : Source S B} {w : σ} {r} : s.fillBuf chk = .ok (r, s') → Step chk s w [] s' w
  | consume {s s' : Source S B} {w : σ} (k : Nat) : k ≤ (held s).length → s.consume chk k = .ok s' →
      Step chk s w ((held s).take k) s' w
  | reset {s : Source S B} {w : σ} : Step chk s w [] s.reset w
  | setAutofill {s : Source S B} {w : σ} (v : Bool) : Step chk s w [] (s.setAutofill v) w

/-- Any number of operations, and all the items they hand out. -/
inductive History (chk : Bool) : Source S B → σ → List I → Source S B → σ → Prop
  | done {s w} : History chk s w [] s w
  | step {s w x s1 w1 y s2 w2} : Step chk s w x s1 w1 → History chk s1 w1 y s2 w2 → History chk s w (x ++ y) s2 w2

/-- A source with automatic fill whose flags tell the truth, and whose outstanding request fits the buffer. -/
structure Ready (rem : S → List I) (s : Source S B) : Prop where
  usable : Usable s
  automatic : s.state.automaticFill = true
  endOfInput : s.state.endOfInput = true → rem s.source = []
  request : s.state.incomplete = true → OwnBuffer.Holds s.buffer (max 1 s.request)

/-- Everything still to come: what is in the buffer, followed by what is in the source. -/
def ahead (rem : S → List I) (s : Source S B) : List I := held s ++ rem s.source

/-- Whatever the parser asks for on the way fits the buffer, and `usize`. -/
def Fits (p : Parser Unit I T E) (b : B) (full : List I) : Prop :=
  (∀ x y n, full = x ++ y → p ⟨.default, x⟩ () = .ok (.incomplete n, ()) → OwnBuffer.Holds b (x.length + n)) ∧
  ∀ n, p ⟨.endOfInput, full⟩ () = .ok (.incomplete n, ()) → full.length + n ≤ usizeMax

/-- The source has moved on. -/
def Continues (rem : S → List I) (s s' : Source S B) : Prop :=
  Ready rem s' ∧ ∀ t, OwnBuffer.Holds s.buffer t → OwnBuffer.Holds s'.buffer t

/-- The outcome `y` of a retry loop started on `s` is the outcome `x` of the parser on all of the data. -/
def Agrees (rem : S → List I) (s : Source S B) (x : Res (ParseResult I T E × Unit))
    (y : Res ((Except (StreamError I E) T × Source S B) × Unit)) : Prop :=
  match x with
  | .ok (.data i t, _) => ∃ s', y = .ok ((.ok t, s'), ()) ∧ ahead rem s' = i.buf ∧ Continues rem s s'
  | .ok (.error b e, _) => ∃ s', y = .ok ((.error (.parseError (held s') e), s'), ()) ∧ ahead rem s' = b ∧
      Continues rem s s'
  | .ok (.incomplete n, _) => ∃ s', y = .ok ((.error (.incomplete ((ahead rem s).length + n)), s'), ()) ∧
      ahead rem s' = ahead rem s ∧ Continues rem s s'
  | .panic => y = .panic
  | .ub => y = .ub
  | .div => y = .div

/-- No method of the buffer has undefined behaviour: it is written in safe Rust, however wrong it may be. -/
structure Harmless (B : Type) {I : Type} [Buffer B I] : Prop where
  deref : ∀ b : B, Buffer.deref b ≠ .ub
  fill : ∀ {S : Type} [DataSource S I] chk (s : S) (b : B), Buffer.fill chk s b ≠ .ub
  request : ∀ chk n (b : B), Buffer.requestSpace chk n b ≠ .ub
  consume : ∀ chk n (b : B), Buffer.consume chk n b ≠ .ub
  len : ∀ chk (b : B), Buffer.len chk b ≠ .ub

/-! ### Three buffers -/

/-- A buffer which reads again and again, until it is full, or finds nothing, or an error. -/
structure Greedy (I : Type) where
  items : List I
  limit : Nat

/-- What its `fill` does, where `n` bounds the number of reads, and `total` items have been read. -/
def Greedy.reads (limit : Nat) : Nat → Nat → S → List I → Except IoError Nat × S × Greedy I
  | 0, total, s, items => (.ok total, s, ⟨items, limit⟩)
  | n + 1, total, s, items =>
    let (out, s') := DataSource.read s (limit - items.length)
    match out.result with
    | .error e => (.error e, s', ⟨items, limit⟩)
    | .ok 0 => (.ok total, s', ⟨items, limit⟩)
    | .ok k => Greedy.reads limit n (total + k) s' (items ++ out.items)

instance : Buffer (Greedy I) I where
  deref b := .ok b.items
  fill _ s b := .ok (Greedy.reads b.limit (b.limit - b.items.length) 0 s b.items)
  requestSpace _ n b := if b.items.length + n ≤ b.limit then .ok b else .panic
  consume _ n b := if n ≤ b.items.length then .ok { b with items := b.items.drop n } else .panic
  len _ b := .ok b.items.length
  capacity b := b.limit

/-- A buffer which claims to have read an item, and keeps none. -/
structure Claimer (I : Type) where

instance : Buffer (Claimer I) I where
  deref _ := .ok []
  fill _ s b := .ok (.ok 1, s, b)
  requestSpace _ _ b := .ok b
  consume _ _ b := .ok b
  len _ _ := .ok 0
  capacity _ := 8

/-- A buffer which claims to have found nothing, without reading. -/
structure Idler (I : Type) where

instance : Buffer (Idler I) I where
  deref _ := .ok []
  fill _ s b := .ok (.ok 0, s, b)
  requestSpace _ _ b := .ok b
  consume _ _ b := .ok b
  len _ _ := .ok 0
  capacity _ := 8

end Own

end Chomp
