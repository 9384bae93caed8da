import Verif.Spec.Source

/-
The loop around `parse` which users write, and what it is compared with. Definitions only.
-/

namespace Chomp.Spec

variable {S B I : Type} [DataSource S I] [Buffer B I]

/-- Call again after `Retry` and after an I/O error, stop on anything else. -/
def again : Except (StreamError I E) T × Source S B →
    Source S B ⊕ (Except (StreamError I E) T × Source S B)
  | (.error .retry, s) => .inl s
  | (.error (.ioError _), s) => .inl s
  | (.error .endOfInput, s) => .inr (.error .endOfInput, s)
  | (.error (.incomplete n), s) => .inr (.error (.incomplete n), s)
  | (.error (.parseError b e), s) => .inr (.error (.parseError b e), s)
  | (.ok t, s) => .inr (.ok t, s)

/-- `loop { match s.parse(p) { Err(Retry) | Err(IoError(_)) => {}, r => break r } }` -/
def retry (chk : Bool) (p : Parser σ I T E) (s : Source S B) :
    M σ (Except (StreamError I E) T × Source S B) :=
  loop (fun s => again <$> s.parse chk p) s

variable [LawfulBuffer B I]

/-- A source with automatic fill whose flags tell the truth: END only at the end of the data, and the
outstanding request fits the buffer. Sources are like this when they are created, and stay so. -/
structure Ready (rem : S → List I) (s : Source S B) : Prop where
  usable : Usable s
  automatic : s.state.automaticFill = true
  endOfInput : s.state.endOfInput = true → rem s.source = []
  request : s.state.incomplete = true → LawfulBuffer.CanHold s.buffer (max 1 s.request)

/-- Everything still to come: what is in the buffer, followed by what is in the source. -/
def ahead (rem : S → List I) (s : Source S B) : List I := held s ++ rem s.source

/-- Whatever the parser asks for on the way fits the buffer, and `usize`. -/
def Fits (p : Parser Unit I T E) (b : B) (full : List I) : Prop :=
  (∀ x y n, full = x ++ y → p ⟨.default, x⟩ () = .ok (.incomplete n, ()) →
    LawfulBuffer.CanHold b (x.length + n)) ∧
  ∀ n, p ⟨.endOfInput, full⟩ () = .ok (.incomplete n, ()) → full.length + n ≤ usizeMax

/-- The source has moved on. -/
def Continues (rem : S → List I) (s s' : Source S B) : Prop :=
  Ready rem s' ∧ ∀ t, LawfulBuffer.CanHold s.buffer t → LawfulBuffer.CanHold s'.buffer t

/-- The outcome `y` of a retry loop started on `s` is the outcome `x` of the parser on all of the
data. The slice reported with an error is the part of the remaining data which has been read. -/
def Agrees (rem : S → List I) (s : Source S B) (x : Res (ParseResult I T E × Unit))
    (y : Res ((Except (StreamError I E) T × Source S B) × Unit)) : Prop :=
  match x with
  | .ok (.data i t, _) => ∃ s', y = .ok ((.ok t, s'), ()) ∧ ahead rem s' = i.buf ∧ Continues rem s s'
  | .ok (.error b e, _) => ∃ s', y = .ok ((.error (.parseError (held s') e), s'), ()) ∧
      ahead rem s' = b ∧ Continues rem s s'
  | .ok (.incomplete n, _) => ∃ s',
      y = .ok ((.error (.incomplete ((ahead rem s).length + n)), s'), ()) ∧
      ahead rem s' = ahead rem s ∧ Continues rem s s'
  | .panic => y = .panic
  | .ub => y = .ub
  | .div => y = .div

end Chomp.Spec

namespace Chomp.Spec

variable {S B I : Type} [DataSource S I] [Buffer B I] [LawfulBuffer B I]

/-- The same answer, up to the slice reported with an error. -/
def SameAnswer : Except (StreamError I E) T → Except (StreamError I E) T → Prop
  | .ok t, .ok t' => t = t'
  | .error (.parseError _ e), .error (.parseError _ e') => e = e'
  | .error (.incomplete n), .error (.incomplete n') => n = n'
  | .error .endOfInput, .error .endOfInput => True
  | _, _ => False

/-- Answer by answer. -/
inductive SameAnswers : List (Except (StreamError I E) T) → List (Except (StreamError I E) T) → Prop
  | nil : SameAnswers [] []
  | cons {r r' rs rs'} : SameAnswer r r' → SameAnswers rs rs' → SameAnswers (r :: rs) (r' :: rs')

/-- Call `parse` with one parser after the other, whatever they answer. -/
def sliceCalls (chk : Bool) : List (Parser Unit I T E) → SliceStream I →
    Res (List (Except (StreamError I E) T) × SliceStream I)
  | [], s => .ok ([], s)
  | p :: ps, s => do
    let ((r, s), _) ← s.parse chk p ()
    let (rs, s) ← sliceCalls chk ps s
    .ok (r :: rs, s)

/-- The same on a `Source`, with a retry loop for each of the parsers. -/
def sourceCalls (chk : Bool) : List (Parser Unit I T E) → Source S B →
    Res (List (Except (StreamError I E) T) × Source S B)
  | [], s => .ok ([], s)
  | p :: ps, s => do
    let ((r, s), _) ← retry chk p s ()
    let (rs, s) ← sourceCalls chk ps s
    .ok (r :: rs, s)

end Chomp.Spec
