import Verif.Tests.Run
import Verif.Lemmas.Source

/-
The tests in /repo/src/buffer/stateful.rs, transcribed by hand. The parsers count how often they are
entered and how often they get the data, so the captured state is a pair.
-/

namespace Chomp.Tests.Source

open Chomp.Spec

/-- `io::Cursor` over a slice: what is left of it. Each read yields as much as there is room for. -/
structure Cursor where
  left : List UInt8

instance : DataSource Cursor UInt8 where
  read c k := (⟨(c.left.take k).map some, .ok (min k c.left.length)⟩, ⟨c.left.drop k⟩)

/-- `buf`, src/buffer/stateful.rs:263-265. -/
def buf (source : String) (bufferLength : Nat) :
    Res (Source (ReadDataSource Cursor) (FixedSizeBuffer UInt8)) := do
  let b ← FixedSizeBuffer.withSize bufferLength
  .ok (Source.withBuffer ⟨⟨bytes source⟩⟩ b)

/-- `|i| { n += 1; p(i).inspect(|_| m += 1) }` -/
def counted (p : Parser (Nat × Nat) UInt8 T E) : Parser (Nat × Nat) UInt8 T E :=
  Parser.effect (modify (fun w => (w.1 + 1, w.2))) fun _ =>
    Parser.inspect p fun _ => modify (fun w => (w.1, w.2 + 1))

/-- A line of a test: a call and what it is expected to return, with the counts thereafter. -/
inductive Line (T : Type) where
  | parse (r : Except (StreamError UInt8 (Error UInt8)) T) (n m : Nat)
  | fill (k : Nat)

/-- The lines are as expected, one after the other. -/
inductive Passes [DataSource S UInt8] (chk : Bool) (p : Parser (Nat × Nat) UInt8 T (Error UInt8)) :
    Source S (FixedSizeBuffer UInt8) → Nat × Nat → List (Line T) → Prop
  | done : Passes chk p s w []
  | parse : s.parse chk p w = .ok ((r, s'), (n, m)) → Passes chk p s' (n, m) ls →
    Passes chk p s w (.parse r n m :: ls)
  | fill : s.fill chk = .ok (.ok k, s') → Passes chk p s' w ls → Passes chk p s w (.fill k :: ls)

macro "go" : tactic => `(tactic| repeat (first
  | exact .done
  | refine .parse (Source.parse_of_fuel 9 rfl) ?_
  | refine .fill (Source.fill_of_fuel (n := 9) rfl) ?_))

/-! `bufsize_zero`, src/buffer/stateful.rs:267-271 -/

example : buf "this is a test" 0 = .panic := rfl

/-! `default_bufsize`, src/buffer/stateful.rs:273-278 -/

example : ∃ b, Source.new (Cursor.mk (bytes "test")) = .ok b ∧ 0 < b.capacity := by
  refine ⟨_, rfl, ?_⟩
  show 0 < (List.replicate 6144 none).length
  rw [List.length_replicate]
  exact Nat.succ_pos _

/-! `empty_buf`, src/buffer/stateful.rs:280-293. The parser is not entered. -/

set_option maxRecDepth 100000 in
example : ∃ b, Source.new (Cursor.mk (bytes "")) = .ok b ∧
    Passes true (counted ((Parsers.take 1).bind id fun _ => Parser.ret true)) b (0, 0) [
    .parse (.error .endOfInput) 0 0] := by
  refine ⟨_, rfl, ?_⟩
  go

/-! `fill`, src/buffer/stateful.rs:295-331 -/

example : ∃ b, buf "test" 1 = .ok b ∧ Passes true (counted Parsers.any) b (0, 0) [
    .parse (.ok (byte 't')) 1 1,
    .parse (.error .retry) 2 1,
    .parse (.ok (byte 'e')) 3 2,
    .parse (.error .retry) 4 2,
    .parse (.ok (byte 's')) 5 3,
    .parse (.error .retry) 6 3,
    .parse (.ok (byte 't')) 7 4,
    .parse (.error .retry) 8 4,
    .parse (.error .endOfInput) 8 4,
    .parse (.error .endOfInput) 8 4] := by
  refine ⟨_, rfl, ?_⟩
  go

/-! `fill2`, src/buffer/stateful.rs:333-363 -/

example : ∃ b, buf "test" 2 = .ok b ∧ Passes true (counted Parsers.any) b (0, 0) [
    .parse (.ok (byte 't')) 1 1,
    .parse (.ok (byte 'e')) 2 2,
    .parse (.error .retry) 3 2,
    .parse (.ok (byte 's')) 4 3,
    .parse (.ok (byte 't')) 5 4,
    .parse (.error .retry) 6 4,
    .parse (.error .endOfInput) 6 4,
    .parse (.error .endOfInput) 6 4] := by
  refine ⟨_, rfl, ?_⟩
  go

/-! `fill3`, src/buffer/stateful.rs:365-389 -/

example : ∃ b, buf "test" 3 = .ok b ∧ Passes true (counted (Parsers.take 2)) b (0, 0) [
    .parse (.ok (bytes "te")) 1 1,
    .parse (.error .retry) 2 1,
    .parse (.ok (bytes "st")) 3 2,
    .parse (.error .retry) 4 2,
    .parse (.error .endOfInput) 4 2,
    .parse (.error .endOfInput) 4 2] := by
  refine ⟨_, rfl, ?_⟩
  go

/-! `incomplete`, src/buffer/stateful.rs:391-409 -/

example : ∃ b, buf "tes" 2 = .ok b ∧ Passes true (counted (Parsers.take 2)) b (0, 0) [
    .parse (.ok (bytes "te")) 1 1,
    .parse (.error .retry) 2 1,
    .parse (.error (.incomplete 2)) 3 1,
    .parse (.error (.incomplete 2)) 4 1] := by
  refine ⟨_, rfl, ?_⟩
  go

/-! `no_autofill`, src/buffer/stateful.rs:411-446 -/

example : ∃ b, buf "test" 2 = .ok b ∧
    Passes true (counted (Parsers.take 2)) (b.setAutofill false) (0, 0) [
    .parse (.error .retry) 1 0,
    .fill 2,
    .parse (.ok (bytes "te")) 2 1,
    .parse (.error .retry) 3 1,
    .fill 2,
    .parse (.ok (bytes "st")) 4 2,
    .parse (.error .retry) 5 2,
    .fill 0,
    .parse (.error .endOfInput) 5 2] := by
  refine ⟨_, rfl, ?_⟩
  go

/-! `no_autofill_first`, src/buffer/stateful.rs:448-479 -/

example : ∃ b, buf "ab" 1 = .ok b ∧
    Passes true (counted Parsers.any) (b.setAutofill false) (0, 0) [
    .fill 1,
    .parse (.ok (byte 'a')) 1 1,
    .parse (.error .retry) 2 1,
    .fill 1,
    .parse (.ok (byte 'b')) 3 2,
    .parse (.error .retry) 4 2,
    .fill 0,
    .parse (.error .endOfInput) 4 2] := by
  refine ⟨_, rfl, ?_⟩
  go

end Chomp.Tests.Source
