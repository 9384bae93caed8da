import Verif.Spec.Retry

/-
Notions for stating what happens after the end of the input. Definitions only.
-/

namespace Chomp.Spec

variable {S B I : Type} [DataSource S I] [Buffer B I]

/-- The source takes its data to be complete, and does not wait for more. -/
def Ended (s : Source S B) : Prop := s.state.endOfInput = true ∧ s.state.incomplete = false

/-- All operations on a `Source` but `fill` and `reset`: `parse`, with any parsers whatsoever, `read`,
`fill_buf`, `consume` and `set_autofill`, any number of times and in any order. -/
inductive WithoutFill (chk : Bool) : Source S B → σ → Source S B → σ → Prop
  | done {s w} : WithoutFill chk s w s w
  | parse {T E : Type} {s s1 s2 : Source S B} {w w1 w2 : σ} (p : Parser σ I T E)
      {r : Except (StreamError I E) T} :
      s.parse chk p w = .ok ((r, s1), w1) → WithoutFill chk s1 w1 s2 w2 → WithoutFill chk s w s2 w2
  | read {s s1 s2 : Source S B} {w w2 : σ} (k : Nat) {r : Except IoError (List I)} :
      s.read chk k = .ok (r, s1) → WithoutFill chk s1 w s2 w2 → WithoutFill chk s w s2 w2
  | fillBuf {s s1 s2 : Source S B} {w w2 : σ} {r : Except IoError (List I)} :
      s.fillBuf chk = .ok (r, s1) → WithoutFill chk s1 w s2 w2 → WithoutFill chk s w s2 w2
  | consume {s s1 s2 : Source S B} {w w2 : σ} (k : Nat) :
      s.consume chk k = .ok s1 → WithoutFill chk s1 w s2 w2 → WithoutFill chk s w s2 w2
  | setAutofill {s s2 : Source S B} {w w2 : σ} (v : Bool) :
      WithoutFill chk (s.setAutofill v) w s2 w2 → WithoutFill chk s w s2 w2

/-- The same source after more data has been made available behind its back: a file to which something
has been appended, a socket on which something has arrived. -/
def withMore (s : Source S B) (more : S) : Source S B := { s with source := more }

end Chomp.Spec
