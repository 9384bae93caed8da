import Verif.Rust.Sources
import Verif.Rust.Results
import Verif.Model.Stream

/-
The texts of /repo/src/buffer/mod.rs and /repo/src/buffer/slice.rs do what their models say.
-/

set_option linter.unusedSimpArgs false

namespace Chomp.Rust

variable {σ X Y T E : Type}

variable [Build] (W : World σ X Y)

attribute [local simp] apply eval evals callStd callMethod_eq receiver matchPats matchPat find Val.field
  index constant binop stdByMut stdCall stdMut optV indexSlice indexVec indexMut place stdMethod

attribute [local simp] getField setField Val.set Val.at Val.put

attribute [-simp] bind_pure_comp

attribute [local simp] panic_bind ub_bind

attribute [local congr] bind_left bind_left' next_left

/-- `StreamError`, src/buffer/mod.rs:52-66. -/
def ofStreamError (e : E → Val X Y) (s : StreamError X E) : Val X Y :=
  match s with
  | .parseError b a => .con "StreamError::ParseError" [.slice b, e a]
  | .incomplete n => .con "StreamError::Incomplete" [.nat n]
  | .ioError a => .con "StreamError::IoError" [.con "io::Error" [.nat a.code]]
  | .endOfInput => .con "StreamError::EndOfInput" []
  | .retry => .con "StreamError::Retry" []

theorem StreamError_from (e : E → Val X Y) (s : ParseError X E) :
    callFn W Text.StreamError_from [ofParseError e s] = pure (ofStreamError e (.ofParseError s)) := by
  rw [callFn]
  cases s <;> simp [Text.StreamError_from, ofParseError, scope_none, evalArms, ofStreamError, StreamError.ofParseError]

/-- `SliceStream`, src/buffer/slice.rs:43-46. -/
def ofSliceStream (s : SliceStream X) : Val X Y :=
  .strct "SliceStream" [("pos", .nat s.pos), ("slice", .slice s.slice)]

theorem SliceStream_new (b : List X) :
    callFn W Text.SliceStream_new [.slice b] = pure (ofSliceStream (.new b)) := by
  rw [callFn]
  simp [Text.SliceStream_new, scope_none, ofSliceStream, SliceStream.new]

theorem slice_into_stream (b : List X) :
    callFn W Text.slice_into_stream [.slice b] = pure (ofSliceStream (.new b)) := by
  rw [callFn]
  simp [Text.slice_into_stream, scope_none, SliceStream_new]

theorem SliceStream_len (s : SliceStream X) :
    callFn W Text.SliceStream_len [ofSliceStream s] = toR (do let n ← M.lift (s.len Build.checked); pure (.nat n)) := by
  rw [callFn]
  simp [Text.SliceStream_len, scope_none, ofSliceStream, SliceStream.len, usubB_checked]

theorem SliceStream_is_empty (s : SliceStream X) :
    callFn W Text.SliceStream_is_empty [ofSliceStream s]
      = toR (do let n ← M.lift (s.isEmpty Build.checked); pure (.bool n)) := by
  have h := SliceStream_len W s
  simp only [ofSliceStream] at h
  rw [callFn]
  simp [Text.SliceStream_is_empty, scope_none, ofSliceStream, SliceStream.isEmpty, h]

/-- The variables of `parse`. -/
abbrev parseEnv (a : Nat) (p : List String) (f : Val X Y) : Env X Y := [("f", .inl f), ("self", .inl (.loc a p))]

attribute [local simp] fstOf sndOf

variable {a : Nat} {p : List String} {F : Val X Y → List (Val X Y)}

theorem SliceStream_parse_empty (hF : Ref a p F) (f : Val X Y) (s : SliceStream X) :
    at_ (eval W (parseEnv a p f) (fstOf Text.SliceStream_parse.body)) (F (ofSliceStream s)) = (do
      let b ← M.lift (s.isEmpty Build.checked)
      pure (if b then .error (.ret (.con "Err" [.con "StreamError::EndOfInput" []])) else .ok .unit, F (ofSliceStream s))) := by
  have he := SliceStream_is_empty W s
  simp only [ofSliceStream] at he
  simp [Text.SliceStream_parse, scope_none, at_bind, deref_loc', hF.read, hF.read_field, ofSliceStream, he]
  refine lift_congr fun b => ?_
  cases b <;> simp

/-- What is matched, and the arms. -/
def scrutinee : Expr → Expr
  | .mtch e _ => e
  | e => e

def armsOf : Expr → List Arm
  | .mtch _ as => as
  | _ => []

attribute [local simp] scrutinee armsOf

theorem SliceStream_parse_call (hF : Ref a p F) (t : T → Val X Y) (e : E → Val X Y) (f : Val X Y) (g : Parser σ X T E)
    (hp : IsParser W f t e g) (s : SliceStream X) :
    at_ (eval W (parseEnv a p f) (scrutinee (sndOf Text.SliceStream_parse.body))) (F (ofSliceStream s)) = (do
      let b ← sliceFrom s.slice s.pos
      let r ← g ⟨.endOfInput, b⟩
      pure (.ok (match r with
        | .data i a => .con "State::Data" [ofInput i, t a]
        | .error b a => .con "State::Error" [.slice b, e a]
        | .incomplete n => .con "State::Incomplete" [.nat n]), F (ofSliceStream s))) := by
  by_cases h : s.pos ≤ s.slice.length
  · have hn : ∀ b, callFn W Text.input_new [.con "InputMode" [.nat 1], .slice b] = pure (ofInput ⟨.endOfInput, b⟩) :=
      fun b => input_new W .endOfInput b
    simp [Text.SliceStream_parse, scope_none, at_bind, deref_loc', hF.read, hF.read_field, ofSliceStream, sliceFrom, h, hn]
    rw [hp]
    simp [ofResult, at_bind]
    rfl
  · simp [Text.SliceStream_parse, scope_none, at_bind, deref_loc', hF.read, hF.read_field, ofSliceStream, sliceFrom, h]

theorem SliceStream_parse_arms (hF : Ref a p F) (t : T → Val X Y) (e : E → Val X Y) (f : Val X Y) (s : SliceStream X)
    (r : ParseResult X T E) :
    at_ (evalArms W (parseEnv a p f) (match r with
        | .data i a => .con "State::Data" [ofInput i, t a]
        | .error b a => .con "State::Error" [.slice b, e a]
        | .incomplete n => .con "State::Incomplete" [.nat n])
        (armsOf (sndOf Text.SliceStream_parse.body))) (F (ofSliceStream s)) = (do
      let r ← (match r with
        | .data remainder data => do
          let l ← M.lift (s.len Build.checked)
          let d ← M.lift (usubB Build.checked l remainder.buf.length)
          let pos ← M.lift (uaddB Build.checked s.pos d)
          pure (.ok data, { s with pos := pos })
        | .error remainder err => do
          let l ← M.lift (s.len Build.checked)
          let d ← M.lift (usubB Build.checked l remainder.length)
          let pos ← M.lift (uaddB Build.checked s.pos d)
          pure (.error (.parseError remainder err), { s with pos := pos })
        | .incomplete n => do
          let l ← M.lift (s.len Build.checked)
          let n ← M.lift (uaddB Build.checked n l)
          pure (.error (.incomplete n), s) : M σ (Except (StreamError X E) T × SliceStream X))
      pure (.ok (ofExcept t (ofStreamError e) r.1), F (ofSliceStream r.2))) := by
  have hl := SliceStream_len W s
  simp only [ofSliceStream] at hl
  cases r with
  | data i a =>
    have hi : callFn W Text.Input_buffer [.con "Input" [ofMode i.mode, .slice i.buf]] = pure (.slice i.buf) := by
      have := Input_buffer W i
      simpa only [ofInput] using this
    simp [hi, Text.SliceStream_parse, evalArms, scope_none, at_bind, deref_loc', hF.read, hF.read_field, hF.write_field, ofSliceStream, hl,
      ofExcept, usubB_checked, ofInput]
  | error b a =>
    simp [Text.SliceStream_parse, evalArms, scope_none, at_bind, deref_loc', hF.read, hF.read_field, hF.write_field, ofSliceStream, hl,
      ofExcept, ofStreamError, usubB_checked]
  | incomplete n =>
    simp [Text.SliceStream_parse, evalArms, scope_none, at_bind, deref_loc', hF.read, hF.read_field, hF.write_field, ofSliceStream, hl,
      ofExcept, ofStreamError, usubB_checked]

theorem SliceStream_parse (hF : Ref a p F)
    (t : T → Val X Y) (e : E → Val X Y) (f : Val X Y) (g : Parser σ X T E) (hp : IsParser W f t e g) (s : SliceStream X) :
    at_ (callFn W Text.SliceStream_parse [.loc a p, f]) (F (ofSliceStream s))
      = (do
        let r ← s.parse Build.checked g
        pure (.ok (ofExcept t (ofStreamError e) r.1), F (ofSliceStream r.2))) := by
  have hb : Text.SliceStream_parse.body = .seq (fstOf Text.SliceStream_parse.body)
    (.mtch (scrutinee (sndOf Text.SliceStream_parse.body)) (armsOf (sndOf Text.SliceStream_parse.body))) := rfl
  have hpar : Text.SliceStream_parse.params = [.bind false "self", .bind false "f"] := rfl
  have h1 := SliceStream_parse_empty W hF f s
  have h2 := SliceStream_parse_call W hF t e f g hp s
  have h3 := SliceStream_parse_arms W hF t e f s
  rw [callFn, hb, hpar]
  simp only [matchPats, matchPat]
  simp [-fstOf, -sndOf, -scrutinee, -armsOf, scope_none, at_bind, at_catchRet, h1]
  rw [SliceStream.parse, bind_assoc]
  refine lift_congr fun b => ?_
  cases b with
  | true => simp [ofExcept, ofStreamError]
  | false =>
    simp [-fstOf, -sndOf, -scrutinee, -armsOf, at_bind, h2]
    refine congrArg _ (funext fun b => ?_)
    refine congrArg _ (funext fun r => ?_)
    rw [h3]
    cases r <;> simp

end Chomp.Rust
