import Verif.Model.Stream

/-
Programs using a `Source` in any way they like. Definitions only.
-/

namespace Chomp.Spec

variable {S B I : Type} [DataSource S I] [Buffer B I]

/-- A call of a safe method of `Source`, of its `io::Read`, `io::BufRead` or `Stream`
(src/buffer/stateful.rs). The parser is any function, and `consume` gets any number. -/
inductive SourceCall (σ I : Type) : Type 1 where
  | parse {T E : Type} (p : Parser σ I T E)
  | fill
  | len
  | isEmpty
  | buffer
  | reset
  | setAutofill (v : Bool)
  | read (k : Nat)
  | fillBuf
  | consume (n : Nat)

/-- Make the call. What it returns is not of interest. -/
def SourceCall.run (chk : Bool) : SourceCall σ I → Source S B → M σ (Source S B)
  | .parse p, s => do
    let (_, s) ← s.parse chk p
    pure s
  | .fill, s => M.lift do
    let (_, s) ← s.fill chk
    .ok s
  | .len, s => M.lift do
    let _ ← s.len chk
    .ok s
  | .isEmpty, s => M.lift do
    let _ ← s.isEmpty chk
    .ok s
  | .buffer, s => M.lift do
    let _ ← s.bufferSlice
    .ok s
  | .reset, s => pure s.reset
  | .setAutofill v, s => pure (s.setAutofill v)
  | .read k, s => M.lift do
    let (_, s) ← s.read chk k
    .ok s
  | .fillBuf, s => M.lift do
    let (_, s) ← s.fillBuf chk
    .ok s
  | .consume n, s => M.lift (s.consume chk n)

/-- Calls one after the other. -/
def runCalls (chk : Bool) : List (SourceCall σ I) → Source S B → M σ (Source S B)
  | [], s => pure s
  | c :: cs, s => do
    let s ← c.run chk s
    runCalls chk cs s

/-- A parser which is not itself undefined behaviour; a slice to read into which fits into memory. -/
def SourceCall.Sound : SourceCall σ I → Prop
  | .parse p => ∀ i w, p i w ≠ .ub
  | .read k => k ≤ isizeMax
  | _ => True

/-- A parser which returns or panics. -/
def SourceCall.Returns : SourceCall σ I → Prop
  | .parse p => ∀ i w, p i w ≠ .div
  | _ => True

end Chomp.Spec
