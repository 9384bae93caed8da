import Verif.Rust.Buffers

/-
The texts of `request_space` of `GrowingBuffer` and of the functions which make buffers (src/buffer/buffer.rs) do
what their models say.
-/

set_option linter.unusedSimpArgs false

namespace Chomp.Rust

variable {σ X Y S : Type}

variable [Build] (W : World σ X Y)

attribute [local simp] apply eval evals callStd callMethod_eq receiver matchPats matchPat find Val.field
  index constant binop stdByMut stdCall stdMut optV indexSlice indexVec indexMut place stdMethod

attribute [local simp] getField setField Val.set Val.at Val.put

attribute [-simp] bind_pure_comp

attribute [local simp] panic_bind ub_bind

attribute [local congr] bind_left bind_left' next_left

variable {a : Nat} {p : List String} {F : Val X Y → List (Val X Y)}

/-- The second half of `request_space`. -/
def growingTail (chk : Bool) (items : Nat) (b : GrowingBuffer X) : Res (GrowingBuffer X) := do
  let free ← usubB chk b.buffer.length b.populated
  if free < items then
    let count ← usubB chk b.populated b.used
    let mem ← ptrCopy b.buffer b.used count
    let p ← usubB chk b.populated b.used
    .ok { b with buffer := mem, populated := p, used := 0 }
  else .ok b

/-- `a` and `b` of `a; b` -/
def fstOf : Expr → Expr
  | .seq a _ => a
  | e => e

def sndOf : Expr → Expr
  | .seq _ b => b
  | e => e

/-- The variables of `request_space`. -/
abbrev growEnv (a : Nat) (p : List String) (n : Nat) : Env X Y := [("items", .inl (.nat n)), ("self", .inl (.loc a p))]

attribute [local simp] fstOf sndOf

theorem Growing_tail (hF : Ref a p F) (b : GrowingBuffer X) (n : Nat) :
    at_ (eval W (growEnv a p n) (sndOf (sndOf Text.GrowingBuffer_request_space.body))) (F (ofGrowing b))
      = (do
        let b ← M.lift (growingTail Build.checked n b)
        pure (.ok .unit, F (ofGrowing b))) := by
  simp [Text.GrowingBuffer_request_space, ofGrowing, scope_none, at_bind, at_catchRet, deref_loc', hF.read, hF.read_field, hF.write_field,
      growingTail, usubB_checked]
  refine lift_congr fun m => ?_
  by_cases hm : m < n
  · simp [hm, scope_none, at_bind, at_catchRet, deref_loc', hF.read, hF.read_field, hF.write_field]
    refine lift_congr fun m => ?_
    simp [hm, scope_none, at_bind, at_catchRet, deref_loc', hF.read, hF.read_field, hF.write_field, stdPtrCopy]
  · simp [hm]

theorem Growing_limit (hF : Ref a p F) (b : GrowingBuffer X) (n : Nat) :
    at_ (eval W (growEnv a p n) (fstOf Text.GrowingBuffer_request_space.body)) (F (ofGrowing b))
      = pure (if b.limit ≠ 0 ∧ b.cap > b.limit then .error (.ret .unit) else .ok .unit, F (ofGrowing b)) := by
  by_cases h1 : b.limit = 0
  · simp [Text.GrowingBuffer_request_space, ofGrowing, at_bind, deref_loc', hF.read, hF.read_field, h1]
  · by_cases h2 : b.limit < b.cap
    · simp [Text.GrowingBuffer_request_space, ofGrowing, at_bind, deref_loc', hF.read, hF.read_field, h1, h2]
    · simp [Text.GrowingBuffer_request_space, ofGrowing, at_bind, deref_loc', hF.read, hF.read_field, h1, h2]

theorem Growing_reserve (hF : Ref a p F) (b : GrowingBuffer X) (n : Nat) :
    at_ (eval W (growEnv a p n) (fstOf (sndOf Text.GrowingBuffer_request_space.body))) (F (ofGrowing b))
      = (do
        let b ← M.lift (do
          let l ← b.len Build.checked
          let need ← uaddB Build.checked n l
          if need > b.cap then do
            let b ← b.reserve n
            b.setLen b.cap
          else .ok b)
        pure (.ok .unit, F (ofGrowing b))) := by
  have hl := Growing_len W b
  simp only [ofGrowing] at hl
  simp [Text.GrowingBuffer_request_space, ofGrowing, scope_none, at_bind, at_catchRet, deref_loc', hF.read, hF.read_field, hF.write_field,
    hl]
  refine lift_congr fun l => ?_
  refine lift_congr fun m => ?_
  by_cases hm : b.cap < m
  · rw [if_pos hm, if_pos hm]
    by_cases h1 : b.buffer.length + n ≤ b.cap
    · rw [vecReserve, if_pos h1, GrowingBuffer.reserve, if_pos h1]
      simp [scope_none, at_bind, at_catchRet, deref_loc', hF.read, hF.read_field, hF.write_field, vecSetLen, GrowingBuffer.setLen]
    · by_cases h2 : b.buffer.length + n ≤ isizeMax
      · rw [vecReserve, if_neg h1, if_pos h2, GrowingBuffer.reserve, if_neg h1, if_pos h2]
        simp [scope_none, at_bind, at_catchRet, deref_loc', hF.read, hF.read_field, hF.write_field, vecSetLen, GrowingBuffer.setLen]
      · rw [vecReserve, if_neg h1, if_neg h2, GrowingBuffer.reserve, if_neg h1, if_neg h2]
        rfl
  · rw [if_neg hm, if_neg hm]
    rfl

theorem Growing_request_space (hF : Ref a p F) (b : GrowingBuffer X) (n : Nat) :
    at_ (callFn W Text.GrowingBuffer_request_space [.loc a p, .nat n]) (F (ofGrowing b))
      = (do
        let b ← M.lift (b.requestSpace Build.checked n)
        pure (.ok .unit, F (ofGrowing b))) := by
  rw [callFn]
  have hb : Text.GrowingBuffer_request_space.body = .seq (fstOf Text.GrowingBuffer_request_space.body)
    (.seq (fstOf (sndOf Text.GrowingBuffer_request_space.body)) (sndOf (sndOf Text.GrowingBuffer_request_space.body))) := rfl
  have hp : Text.GrowingBuffer_request_space.params = [.bind false "self", .bind false "items"] := rfl
  have h1 := Growing_limit W hF b n
  have h2 := Growing_reserve W hF b n
  have h3 := fun b => Growing_tail W hF b n
  simp only [hp]
  rw [hb]
  by_cases h : b.limit ≠ 0 ∧ b.cap > b.limit
  · rw [GrowingBuffer.requestSpace, if_pos h]
    rw [if_pos h] at h1
    simp [-fstOf, -sndOf, scope_none, at_bind, at_catchRet, h1]
  · rw [GrowingBuffer.requestSpace, if_neg h]
    rw [if_neg h] at h1
    simp [-fstOf, -sndOf, scope_none, at_bind, at_catchRet, h1, h2, h3, growingTail]
    refine lift_congr fun l => ?_
    refine lift_congr fun m => ?_
    by_cases hm : b.cap < m
    · simp [hm]
    · simp [hm]

/-! ### Making buffers -/

theorem Growing_with_limit (n : Nat) :
    callFn W Text.GrowingBuffer_with_limit [.nat n] = pure (ofGrowing (.withLimit W.extra n)) := by
  rw [callFn]
  simp [Text.GrowingBuffer_with_limit, scope_none, ofGrowing, GrowingBuffer.withLimit]

theorem Growing_new : callFn W Text.GrowingBuffer_new [] = pure (ofGrowing (.new W.extra)) := by
  rw [callFn]
  simp [Text.GrowingBuffer_new, scope_none, Growing_with_limit, GrowingBuffer.new]

set_option maxHeartbeats 2000000 in
theorem Fixed_with_size (n : Nat) :
    callFn W Text.FixedSizeBuffer_with_size [.nat n] = toR (do
      let b ← M.lift (FixedSizeBuffer.withSize n)
      pure (ofFixed (min isizeMax (n + W.extra 0)) W.extra 1 b)) := by
  refine ext_at fun st => ?_
  rw [callFn]
  rw [FixedSizeBuffer.withSize, assert, assert]
  by_cases h : 0 < n
  · have h0 : ¬ n ≤ 0 := Nat.not_le.2 h
    have hn : n - ([] : List (Option X)).length = n := rfl
    by_cases h1 : n ≤ isizeMax
    · have h2 : n ≤ min isizeMax (n + W.extra 0) := by omega
      have hr : vecReserve ([] : List (Option X)) 0 W.extra 0 n
          = .ok (.vec [] (min isizeMax (n + W.extra 0)) W.extra 1 : Val X Y) := by
        rw [vecReserve, List.length_nil, Nat.zero_add, if_neg h0, if_pos h1]
      have hd : decide (n ≤ isizeMax) = true := decide_eq_true h1
      rw [hd]
      revert hr h2
      generalize min isizeMax (n + W.extra 0) = c
      intro h2 hr
      simp [Text.FixedSizeBuffer_with_size, scope_none, at_scope, at_bind, at_catchRet, h, hr, vecSetLen, h2, ofFixed]
    · have hr : vecReserve ([] : List (Option X)) 0 W.extra 0 n = (.panic : Res (Val X Y)) := by
        rw [vecReserve, List.length_nil, Nat.zero_add, if_neg h0, if_neg h1]
      have hd : decide (n ≤ isizeMax) = false := decide_eq_false h1
      rw [hd]
      generalize min isizeMax (n + W.extra 0) = c
      simp [Text.FixedSizeBuffer_with_size, scope_none, at_scope, at_bind, at_catchRet, h, hr, vecSetLen, ofFixed]
  · simp [Text.FixedSizeBuffer_with_size, scope_none, at_scope, at_bind, at_catchRet, h]

theorem Fixed_new :
    callFn W Text.FixedSizeBuffer_new [] = toR (do
      let b ← M.lift FixedSizeBuffer.new
      pure (ofFixed (min isizeMax (6 * 1024 + W.extra 0)) W.extra 1 b)) := by
  rw [callFn, FixedSizeBuffer.new]
  have h := Fixed_with_size W (6 * 1024)
  have hu : 6 * 1024 ≤ usizeMax := by decide
  revert h
  generalize FixedSizeBuffer.withSize (6 * 1024) = r
  generalize min isizeMax (6 * 1024 + W.extra 0) = c
  intro h
  simp only [Nat.reduceMul] at h
  simp [Text.FixedSizeBuffer_new, scope_none, hu, h]

end Chomp.Rust
