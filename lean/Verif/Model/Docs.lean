import Verif.Model.Ascii
import Verif.Model.Closures

/-
The parsers in the documentation of the crate (src/lib.rs, src/macros.rs), with `parse!` expanded as in
src/macros.rs:3-14 (C85). `v` tells whether the crate is compiled with `verbose_error`.
-/

namespace Chomp.Docs

variable [Build]

/-- `Name`, src/lib.rs:22-25. -/
structure Name where
  first : List UInt8
  last : List UInt8
deriving DecidableEq, Repr

/-- `name`, src/lib.rs:27-38; also src/macros.rs:32-41. -/
def name (v : Bool) : Parser σ UInt8 Name (Error UInt8) :=
  Parser.bind id (Parsers.takeWhile1 v (· != 32)) fun first =>
  Parser.andThen id (Parsers.token v 32) <|
  Parser.bind id (Parsers.takeWhile1 v (· != 10)) fun last =>
  Parser.ret ⟨first, last⟩

/-- `a + b` on `u8`, in a debug build (`chk`) or a release build. -/
def addU8 (chk : Bool) (a b : UInt8) : M σ UInt8 :=
  if chk = true ∧ 256 ≤ a.toNat + b.toNat then M.panic else pure (a + b)

/-- `a - b` on `u8` -/
def subU8 (chk : Bool) (a b : UInt8) : M σ UInt8 :=
  if chk = true ∧ a < b then M.panic else pure (a - b)

/-- `digit`, src/lib.rs:156-158. -/
def digit (chk v : Bool) : Parser σ UInt8 UInt8 (Error UInt8) :=
  Closures.map (Parsers.satisfy v fun c => 48 ≤ c && c ≤ 57) fun c => subU8 chk c 48

/-- `f`, src/lib.rs:147-154. -/
def f (chk v : Bool) : Parser σ UInt8 (UInt8 × UInt8 × UInt8) (Error UInt8) :=
  Parser.bind id (digit chk v) fun a =>
  Parser.bind id (digit chk v) fun b =>
  Parser.andThen id (Parsers.string v [109, 105, 115, 115, 105, 108, 101, 115]) <|
  fun i => do
    let c ← addU8 chk a b
    pure (i.ret (a, b, c))

/-- `u8` -/
def u8 (chk : Bool) : Ascii.IntTy := ⟨8, false, chk⟩

/-- `a <* b`, src/macros.rs:537-539. -/
def skip (a : Parser σ I T E) (b : Parser σ I U E) : Parser σ I T E :=
  Parser.bind id a fun l => Parser.map b fun _ => l

/-- `parse_ip`, src/macros.rs:59-69. -/
def parseIp (chk v : Bool) : Parser σ UInt8 (Int × Int × Int × Int) (Error UInt8) :=
  Parser.andThen id (Parsers.string v [105, 112, 58]) <|
  Parser.bind id (skip (Ascii.decimal v (u8 chk).num) (Parsers.token v 46)) fun a =>
  Parser.bind id (skip (Ascii.decimal v (u8 chk).num) (Parsers.token v 46)) fun b =>
  Parser.bind id (skip (Ascii.decimal v (u8 chk).num) (Parsers.token v 46)) fun c =>
  Parser.bind id (Ascii.decimal v (u8 chk).num) fun d =>
  Parser.andThen id (Parsers.token v 59) <|
  Parser.ret (a, b, c, d)

/-- `Log`, src/macros.rs:83-88. -/
inductive Log where
  | error
  | warning
  | info
  | debug
deriving DecidableEq, Repr

/-- `level`, src/macros.rs:90. -/
def level (v : Bool) (b : List UInt8) (r : Log) : Parser σ UInt8 Log (Error UInt8) :=
  Parser.map (Parsers.string v b) fun _ => r

/-- `log_severity`, src/macros.rs:91-96. -/
def logSeverity (v : Bool) : Parser σ UInt8 Log (Error UInt8) :=
  Comb.or (level v [69, 82, 82, 79, 82] .error) <|
  Comb.or (level v [87, 65, 82, 78] .warning) <|
  Comb.or (level v [73, 78, 70, 79] .info)
    (level v [68, 69, 66, 85, 71] .debug)

end Chomp.Docs
