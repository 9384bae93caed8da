import Verif.Rust.Rest
import Verif.Props.RustStreams
import Verif.Model.Derived

/-
C113: the text of the functions which the properties C109 to C112 leave, run by the rules of Rust, does what the model
says: `==` of `StreamError`, `is_empty` of `Buffer`, and what errors print.

As in Verif/Props/RustBuffers.lean: `runWith W Text.f args cells` runs `f` where `cells` are variables of the caller, and
`.loc k []` is a `&mut` to the `k`-th of them. A `Formatter` is the text which has been written to it.
-/

namespace Chomp.Props

open Rust hiding bind map

section
variable {σ X Y B E : Type} [Build] (W : World σ X Y)

/-! ### src/buffer/mod.rs -/

/-- `==` where errors are of a type of the user. -/
theorem C113_StreamError_eq [BEq X] [BEq E] (y : E → Y) (hx : ∀ a b, W.eq a b = pure (a == b))
    (he : ∀ a b, W.eqOther (y a) (y b) = pure (a == b)) (s t : StreamError X E) :
    run W Text.StreamError_eq [ofStreamError (fun a => .other (y a)) s, ofStreamError (fun a => .other (y a)) t]
      = pure (.bool (s.eq t)) :=
  run_eq W (StreamError_eq W hx (EqOf.other W he) s t)

/-- `==` where errors are `Error`, whose `==` is derived. -/
theorem C113_StreamError_eq_error [DecidableEq X] (hx : ∀ a b, W.eq a b = pure (a == b)) (s t : StreamError X (Error X)) :
    run W Text.StreamError_eq [ofStreamError ofError s, ofStreamError ofError t] = pure (.bool (s.eq t)) :=
  run_eq W (StreamError_eq W hx (EqOf.error W hx) s t)

/-! ### src/buffer/buffer.rs -/

theorem C113_Buffer_is_empty [Buffer B X] {eb : B → Val X Y} {Fits : B → Prop} (hb : BufferOf B eb Fits) (b : B) :
    run W Text.Buffer_is_empty [eb b] = (do let r ← M.lift (Buffer.isEmpty Build.checked b); pure (.bool r)) := by
  rw [run_eq W (Buffer_is_empty W (hb.laws W) b)]
  funext w
  show (M.lift _ >>= _) w = (M.lift (Res.bind _ _) >>= _) w
  cases Buffer.len Build.checked b <;> rfl

/-! ### src/parsers.rs -/

/-- `fmt` with the feature `verbose_error`. -/
theorem C113_Error_fmt (e : Error X) (he : e ≠ .generic) (t : Fmt.Text) :
    runWith W Text.Error_fmt_verbose [ofError e, .loc 0 []] [ofText t]
      = pure (.con "Ok" [.unit], [ofText (t ++ Fmt.display W.debug e)]) :=
  runWith_pure (Error_fmt_verbose W (Ref.cell [] []) e he t)

/-- `fmt` without the feature `verbose_error`. -/
theorem C113_Error_fmt_terse (t : Fmt.Text) :
    runWith W Text.Error_fmt_terse [ofError .generic, .loc 0 []] [ofText t]
      = pure (.con "Ok" [.unit], [ofText (t ++ Fmt.display W.debug .generic)]) :=
  runWith_pure (Error_fmt_terse W (Ref.cell [] []) t)

/-- `description` with the feature `verbose_error`. -/
theorem C113_Error_description (e : Error X) (he : e ≠ .generic) :
    run W Text.Error_description_verbose [ofError e] = pure (ofText (Fmt.description e)) :=
  run_eq W (Error_description_verbose W e he)

/-- `description` without the feature `verbose_error`. -/
theorem C113_Error_description_terse :
    run W Text.Error_description_terse [ofError .generic] = pure (ofText (Fmt.description (I := X) .generic)) :=
  run_eq W (Error_description_terse W)

omit [Build] in
/-- Different texts are different values. -/
theorem C113_text_injective (s t : Fmt.Text) (h : (ofText s : Val X Y) = ofText t) : s = t :=
  ofText_injective s t h

end

/-! ### Cases -/

namespace RustRestEx

/-- Bytes print as numbers; errors of the user are numbers modulo 10. -/
def world : World Unit UInt8 Nat where
  verbose := true
  ext _ _ := M.ub
  eq a b := pure (a == b)
  ne a b := pure (a != b)
  clone := pure
  cloneOther := pure
  from_ := pure
  byte n := UInt8.ofNat n
  le a b := a ≤ b
  sub a b := .ok (a - b)
  fromU8 x := pure x.toNat
  fromI8 _ := pure 0
  add _ _ := M.panic
  mul _ _ := M.panic
  collect := ⟨Unit, (), fun _ => .panic⟩
  eqOther a b := pure (a % 10 == b % 10)
  debug x := Fmt.number x.toNat

section
local instance : Build := ⟨true⟩

structure Digit where
  n : Nat

instance : BEq Digit := ⟨fun a b => a.n % 10 == b.n % 10⟩

-- errors are compared by their own `==`
example : run world Text.StreamError_eq
      [.con "StreamError::ParseError" [.slice [1, 2], .other 13], .con "StreamError::ParseError" [.slice [1, 2], .other 3]] ()
    = .ok (.bool true, ()) :=
  congrFun (C113_StreamError_eq world Digit.n (fun _ _ => rfl) (fun _ _ => rfl) (.parseError [1, 2] ⟨13⟩)
    (.parseError [1, 2] ⟨3⟩)) ()

-- an error of the operating system is not equal to itself
example : run world Text.StreamError_eq
      [.con "StreamError::IoError" [.con "io::Error" [.nat 5]], .con "StreamError::IoError" [.con "io::Error" [.nat 5]]] ()
    = .ok (.bool false, ()) :=
  congrFun (C113_StreamError_eq_error world (fun _ _ => rfl) (.ioError ⟨5⟩) (.ioError ⟨5⟩)) ()

-- the errors differ
example : run world Text.StreamError_eq
      [.con "StreamError::ParseError" [.slice [1], .con "Error::Expected" [.item 7]],
        .con "StreamError::ParseError" [.slice [1], .con "Error::Expected" [.item 8]]] ()
    = .ok (.bool false, ()) :=
  congrFun (C113_StreamError_eq_error world (fun _ _ => rfl) (.parseError [1] (.expected 7)) (.parseError [1] (.expected 8))) ()

-- one item is left
example : run BuffersEx.world Text.Buffer_is_empty [ofFixed 4 BuffersEx.world.extra 1 BuffersEx.small] ()
    = .ok (.bool false, ()) := by
  rw [C113_Buffer_is_empty BuffersEx.world (BufferOf.fixed _ _ _)]
  rfl

-- the text goes to the end
example : runWith world Text.Error_fmt_verbose [.con "Error::String" [.slice [97, 98]], .loc 0 []] [ofText ['>', ' ']] ()
    = .ok ((.con "Ok" [.unit], [ofText "> expected [97, 98]".toList]), ()) := by
  rw [show (Val.con "Error::String" [.slice [97, 98]] : Val UInt8 Nat) = ofError (.string [97, 98]) from rfl,
    C113_Error_fmt world _ (by simp)]
  rfl

end

end RustRestEx

end Chomp.Props
