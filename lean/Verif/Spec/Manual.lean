import Verif.Spec.Retry

/-
Filling a `Source` by hand. Definitions only.
-/

namespace Chomp.Spec

variable {S B I : Type} [DataSource S I] [Buffer B I]

/-- `loop { if s.fill().is_err() { continue } match s.parse(p) { Err(Retry) | Err(IoError(_)) => {}, r => break r } }` -/
def fillFirst (chk : Bool) (p : Parser σ I T E) (s : Source S B) :
    M σ (Except (StreamError I E) T × Source S B) :=
  loop (fun s => do
    match ← M.lift (s.fill chk) with
    | (.error _, s) => pure (.inl s)
    | (.ok _, s) => again <$> s.parse chk p) s

/-- `match s.parse(p) { Err(Retry) | Err(IoError(_)) => <the loop above>, r => r }` -/
def parseFirst (chk : Bool) (p : Parser σ I T E) (s : Source S B) :
    M σ (Except (StreamError I E) T × Source S B) := do
  match again (← s.parse chk p) with
  | .inl s => fillFirst chk p s
  | .inr r => pure r

/-- The source with these flags for INCOMPLETE and AUTOMATIC_FILL. -/
def withFlags (incomplete automatic : Bool) (s : Source S B) : Source S B :=
  { s with state := { s.state with incomplete := incomplete, automaticFill := automatic } }

/-- The same outcome, with automatic filling on or off afterwards. -/
def thenAutofill (v : Bool) :
    Res ((Except (StreamError I E) T × Source S B) × σ) → Res ((Except (StreamError I E) T × Source S B) × σ)
  | .ok ((r, s), w) => .ok ((r, s.setAutofill v), w)
  | .panic => .panic
  | .ub => .ub
  | .div => .div

/-- The outcome but for these two flags. -/
def butFlags :
    Res ((Except (StreamError I E) T × Source S B) × σ) → Res ((Except (StreamError I E) T × Source S B) × σ)
  | .ok ((r, s), w) => .ok ((r, withFlags false false s), w)
  | .panic => .panic
  | .ub => .ub
  | .div => .div

/-- One parser after the other, whatever they answer, each with `parseFirst`. -/
def manualCalls (chk : Bool) : List (Parser Unit I T E) → Source S B →
    Res (List (Except (StreamError I E) T) × Source S B)
  | [], s => .ok ([], s)
  | p :: ps, s => do
    let ((r, s), _) ← parseFirst chk p s ()
    let (rs, s) ← manualCalls chk ps s
    .ok (r :: rs, s)

end Chomp.Spec
