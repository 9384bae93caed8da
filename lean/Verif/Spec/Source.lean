import Verif.Spec.Built
import Verif.Spec.Buffer
import Verif.Spec.Slice

/-
Notions for stating the properties of `Source`. Definitions only.
-/

namespace Chomp.Spec

variable {S B I : Type} [DataSource S I] [Buffer B I] [LawfulBuffer B I]

/-- What is in the buffer of a source: `buffer()` returns this (C48). -/
def held (s : Source S B) : List I := LawfulBuffer.view s.buffer

/-- The source can be used: its buffer is in a state which can be reached. -/
def Usable (s : Source S B) : Prop := LawfulBuffer.Inv s.buffer

/-- The last of the reads leading from `s` to `s'` and yielding `xs` was one into a slice of length
`k`, with result `r`, yielding nothing. -/
def LastRead (s : S) (xs : List I) (k : Nat) (r : Except IoError Nat) (s' : S) : Prop :=
  ∃ s1, Reads s xs s1 ∧ DataSource.read s1 k = ((DataSource.read s1 k).1, s') ∧
    (DataSource.read s1 k).1.result = r ∧ (DataSource.read s1 k).1.items = []

/-- The mode in which parsers are run: whether more may follow what is in the buffer. -/
def modeOf (s : Source S B) : Mode := if s.state.endOfInput then .endOfInput else .default

/-- What a call of `parse` with the parser `p`, returning `r` and leaving `s'`, did to the items `given`
which were in the buffer when the parser was run. -/
def Effect (p : Parser σ I T E) (given : List I) (w : σ) (r : Except (StreamError I E) T)
    (s' : Source S B) (w' : σ) : Prop :=
  match r with
  /- success: the buffer holds the remainder -/
  | .ok t => p ⟨modeOf s', given⟩ w = .ok (.data ⟨modeOf s', held s'⟩ t, w')
  /- failure: the buffer holds what follows the error -/
  | .error (.parseError b e) => p ⟨modeOf s', given⟩ w = .ok (.error b e, w') ∧ held s' = b
  /- not enough data: nothing is removed -/
  | .error (.incomplete _) => modeOf s' = .endOfInput ∧ held s' = given ∧
      ∃ n, p ⟨.endOfInput, given⟩ w = .ok (.incomplete n, w')
  | .error .retry => modeOf s' = .default ∧ held s' = given ∧
      ∃ n, p ⟨.default, given⟩ w = .ok (.incomplete n, w')
  /- the parser has not been run -/
  | .error .endOfInput => modeOf s' = .endOfInput ∧ given = [] ∧ held s' = [] ∧ w' = w
  | .error (.ioError _) => held s' = given ∧ w' = w

/-- The state in which `parse` runs the parser. -/
def autofilled (chk : Bool) (s : Source S B) : Source S B :=
  if s.state.incomplete && s.state.automaticFill then
    match s.fill chk with
    | .ok (_, s1) => s1
    | _ => s
  else s

/-- What a call of `parse` on `s`, returning `r` and leaving `s'`, did to flags and request. `s1` is the
state in which the parser was run. -/
def Frame (chk : Bool) (s s1 : Source S B) (r : Except (StreamError I E) T) (s' : Source S B) : Prop :=
  match r with
  | .ok _ => s'.state = s1.state ∧ s'.request = s.request
  | .error (.parseError _ _) => s'.state = s1.state ∧ s'.request = s.request
  | .error (.incomplete m) => s'.state = s1.state ∧ s'.request = m ∧ s'.buffer = s1.buffer
  | .error .retry => s'.state = { s1.state with incomplete := true } ∧ s'.buffer = s1.buffer
  | .error .endOfInput => s' = s1
  | .error (.ioError e) => s' = s1 ∧ s'.state = s.state ∧ s.fill chk = .ok (.error e, s')

/-- The operations on a `Source` and the items they hand out: for `parse` the part which the parser
has consumed, that is, the difference between what it was given and what is left, for `read` the items returned, for `consume` those removed from the front. -/
inductive SourceStep (chk : Bool) : Source S B → σ → List I → Source S B → σ → Prop
  | parse {T E : Type} {s s' : Source S B} {w w' : σ} (p : Parser σ I T E)
      {r : Except (StreamError I E) T} {x : List I} : Built everything p →
      s.parse chk p w = .ok ((r, s'), w') → held (autofilled chk s) = x ++ held s' →
      SourceStep chk s w x s' w'
  | fill {s s' : Source S B} {w : σ} {r} : s.fill chk = .ok (r, s') → SourceStep chk s w [] s' w
  | read {s s' : Source S B} {w : σ} {xs : List I} (k : Nat) :
      s.read chk k = .ok (.ok xs, s') → SourceStep chk s w xs s' w
  | readErr {s s' : Source S B} {w : σ} {e} (k : Nat) :
      s.read chk k = .ok (.error e, s') → SourceStep chk s w [] s' w
  | fillBuf {s s' : Source S B} {w : σ} {r} : s.fillBuf chk = .ok (r, s') → SourceStep chk s w [] s' w
  | consume {s s' : Source S B} {w : σ} (k : Nat) : k ≤ (held s).length →
      s.consume chk k = .ok s' → SourceStep chk s w ((held s).take k) s' w
  | reset {s : Source S B} {w : σ} : SourceStep chk s w [] s.reset w
  | setAutofill {s : Source S B} {w : σ} (v : Bool) : SourceStep chk s w [] (s.setAutofill v) w

/-- Any number of operations, and all the items they hand out. -/
inductive SourceHistory (chk : Bool) : Source S B → σ → List I → Source S B → σ → Prop
  | done {s w} : SourceHistory chk s w [] s w
  | step {s w x s1 w1 y s2 w2} : SourceStep chk s w x s1 w1 → SourceHistory chk s1 w1 y s2 w2 →
      SourceHistory chk s w (x ++ y) s2 w2

end Chomp.Spec
