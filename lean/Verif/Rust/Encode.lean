import Verif.Rust.Eval

/-
How the values of the model are written as values of the interpreter.
-/

namespace Chomp.Rust

variable {σ X Y : Type}

/-- `InputMode`, src/input.rs:4-11. -/
def ofMode (m : Mode) : Val X Y :=
  match m with
  | .default => .con "InputMode" [.nat 0]
  | .endOfInput => .con "InputMode" [.nat 1]

/-- `Input`, src/input.rs:76-78. -/
def ofInput (i : Input X) : Val X Y := .con "Input" [ofMode i.mode, .slice i.buf]

/-- `ParseResult`, src/parse_result.rs:18-31 and 81-83. -/
def ofResult (t : T → Val X Y) (e : E → Val X Y) (r : ParseResult X T E) : Val X Y :=
  .con "ParseResult" [match r with
    | .data i a => .con "State::Data" [ofInput i, t a]
    | .error b a => .con "State::Error" [.slice b, e a]
    | .incomplete n => .con "State::Incomplete" [.nat n]]

/-- `Error`, src/parsers.rs:417-424 and 497. -/
def ofError (e : Error X) : Val X Y :=
  match e with
  | .expected x => .con "Error::Expected" [.item x]
  | .unexpected => .con "Error::Unexpected" []
  | .string s => .con "Error::String" [.slice s]
  | .generic => .con "Error" [.con "PhantomData" []]

/-- `Option` -/
def ofOption (f : A → Val X Y) (o : Option A) : Val X Y :=
  match o with
  | some a => .con "Some" [f a]
  | none => .con "None" []

/-- `()` -/
def ofUnit (_ : Unit) : Val X Y := .tuple []

/-- `Result` -/
def ofExcept (t : T → Val X Y) (e : E → Val X Y) (r : Except E T) : Val X Y :=
  match r with
  | .ok a => .con "Ok" [t a]
  | .error a => .con "Err" [e a]

/-- Call a function of the crate from outside. -/
def run [Build] (W : World σ X Y) (f : Fn) (vs : List (Val X Y)) : M σ (Val X Y) := do
  let (r, _) ← (callFn W f vs).run.run []
  match r with
  | .ok v => pure v
  | .error _ => M.ub

end Chomp.Rust
