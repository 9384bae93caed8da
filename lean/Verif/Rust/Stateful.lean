import Verif.Rust.Laws
import Verif.Rust.Streams

/-
The text of /repo/src/buffer/stateful.rs does what its model says.
-/

set_option linter.unusedSimpArgs false
set_option linter.unusedSectionVars false

namespace Chomp.Rust

variable {σ X Y T E S B : Type}

variable [Build] (W : World σ X Y)

theorem callMethod_strct (r : Option (Nat × List String)) (c : String) (fs : List (String × Val X Y)) (m : String)
    (vs : List (Val X Y)) :
    callMethod W r (.strct c fs) m vs = callFound W (Text.find W.verbose c m) r (.strct c fs) m vs := callMethod_eq ..
theorem callMethod_con (r : Option (Nat × List String)) (c : String) (us : List (Val X Y)) (m : String)
    (vs : List (Val X Y)) :
    callMethod W r (.con c us) m vs = callFound W (Text.find W.verbose c m) r (.con c us) m vs := callMethod_eq ..
theorem callMethod_slice (r : Option (Nat × List String)) (b : List X) (m : String) (vs : List (Val X Y)) :
    callMethod W r (.slice b) m vs = callFound W (Text.find W.verbose "-" m) r (.slice b) m vs := callMethod_eq ..

attribute [local simp] apply eval evals callStd callMethod_strct callMethod_con callMethod_slice receiver matchPats matchPat find
  Val.field index constant binop stdByMut stdCall stdMut optV indexSlice indexVec indexMut place stdMethod

attribute [local simp] getField setField Val.set Val.at Val.put

attribute [-simp] bind_pure_comp

attribute [local simp] panic_bind ub_bind

attribute [local congr] bind_left bind_left' next_left

/-- The flags as bits, src/buffer/stateful.rs:17-28. -/
def flagsNat (f : Flags) : Nat :=
  (if f.incomplete then 1 else 0) + (if f.endOfInput then 2 else 0) + (if f.automaticFill then 4 else 0)

def ofFlags (f : Flags) : Val X Y := .con "ParserState" [.nat (flagsNat f)]

section
omit [Build]
@[simp] theorem flags_inc (f : Flags) : (flagsNat f &&& 1 == 1) = f.incomplete := by
  obtain ⟨a, b, c⟩ := f; revert a b c; decide
@[simp] theorem flags_eoi (f : Flags) : (flagsNat f &&& 2 == 2) = f.endOfInput := by
  obtain ⟨a, b, c⟩ := f; revert a b c; decide
@[simp] theorem flags_inc_auto (f : Flags) : (flagsNat f &&& 5 == 5) = (f.incomplete && f.automaticFill) := by
  obtain ⟨a, b, c⟩ := f; revert a b c; decide
@[simp] theorem flags_insert1 (f : Flags) : flagsNat f ||| 1 = flagsNat { f with incomplete := true } := by
  obtain ⟨a, b, c⟩ := f; revert a b c; decide
@[simp] theorem flags_insert2 (f : Flags) : flagsNat f ||| 2 = flagsNat { f with endOfInput := true } := by
  obtain ⟨a, b, c⟩ := f; revert a b c; decide
@[simp] theorem flags_insert4 (f : Flags) : flagsNat f ||| 4 = flagsNat { f with automaticFill := true } := by
  obtain ⟨a, b, c⟩ := f; revert a b c; decide
@[simp] theorem flags_remove1 (b c : Bool) : flagsNat ⟨true, b, c⟩ ^^^ 1 = flagsNat ⟨false, b, c⟩ := by
  revert b c; decide
@[simp] theorem flags_remove2 (a c : Bool) : flagsNat ⟨a, true, c⟩ ^^^ 2 = flagsNat ⟨a, false, c⟩ := by
  revert a c; decide
@[simp] theorem flags_remove4 (a b : Bool) : flagsNat ⟨a, b, true⟩ ^^^ 4 = flagsNat ⟨a, b, false⟩ := by
  revert a b; decide

/-- `Source`, src/buffer/stateful.rs:32-41. -/
def sourceVal (s b q f : Val X Y) : Val X Y :=
  .strct "Source" [("source", s), ("buffer", b), ("request", q), ("state", f)]

def ofSource (es : S → Val X Y) (eb : B → Val X Y) (s : Source S B) : Val X Y :=
  sourceVal (es s.source) (eb s.buffer) (.nat s.request) (ofFlags s.state)

variable {a : Nat} {p : List String} {F : Val X Y → List (Val X Y)}

theorem ref_source (hF : Ref a p F) (b q f : Val X Y) : Ref a (p ++ ["source"]) (fun s => F (sourceVal s b q f)) :=
  hF.field (fun s => sourceVal s b q f) "source" (fun _ => by simp [sourceVal]) (fun _ _ => by simp [sourceVal])
theorem ref_buffer (hF : Ref a p F) (s q f : Val X Y) : Ref a (p ++ ["buffer"]) (fun b => F (sourceVal s b q f)) :=
  hF.field (fun b => sourceVal s b q f) "buffer" (fun _ => by simp [sourceVal]) (fun _ _ => by simp [sourceVal])
theorem ref_request (hF : Ref a p F) (s b f : Val X Y) : Ref a (p ++ ["request"]) (fun q => F (sourceVal s b q f)) :=
  hF.field (fun q => sourceVal s b q f) "request" (fun _ => by simp [sourceVal]) (fun _ _ => by simp [sourceVal])
theorem ref_state (hF : Ref a p F) (s b q : Val X Y) : Ref a (p ++ ["state"]) (fun f => F (sourceVal s b q f)) :=
  hF.field (fun f => sourceVal s b q f) "state" (fun _ => by simp [sourceVal]) (fun _ _ => by simp [sourceVal])

/-- Run without a state. -/
def unst (x : M Unit α) : Res α := do let r ← x (); .ok r.1

theorem unst_lift (x : Res α) (f : α → M Unit β) : unst (M.lift x >>= f) = x >>= fun a => unst (f a) := by
  cases x <;> rfl

theorem liftStep_fill [DataSource S X] [Buffer B X] (chk : Bool) (req : Nat) (x : S × B × Nat) :
    (liftStep (Source.fillStep chk req) x : M σ _) = (do
      let l ← M.lift (Buffer.len chk x.2.1)
      if l < req then do
        let r ← M.lift (Buffer.fill chk x.1 x.2.1)
        match r.1 with
        | .error e => pure (.inr (.error e, r.2.1, r.2.2))
        | .ok n =>
          if n = 0 then pure (.inr (.ok x.2.2, r.2.1, r.2.2))
          else do
            let rd ← M.lift (uaddB chk x.2.2 n)
            pure (.inl (r.2.1, r.2.2, rd))
      else pure (.inr (.ok x.2.2, x.1, x.2.1))) := by
  obtain ⟨s, b, rd⟩ := x
  show M.lift (unst _) = _
  unfold Source.fillStep
  dsimp only
  rw [unst_lift, lift_bind]
  refine lift_congr fun l => ?_
  by_cases h : l < req
  · rw [if_pos h, if_pos h, unst_lift, lift_bind]
    refine lift_congr fun r => ?_
    obtain ⟨r, s', b'⟩ := r
    cases r with
    | error e => rfl
    | ok n =>
      cases n with
      | zero => rfl
      | succ n =>
        dsimp only
        rw [if_neg (Nat.add_one_ne_zero n)]
        show M.lift (unst (M.lift (uaddB chk rd (n + 1)) >>= _)) = _
        rw [unst_lift, lift_bind]
        rfl
  · rw [if_neg h, if_neg h]
    rfl
end

variable [DataSource S X] [Buffer B X] {es : S → Val X Y} {eb : B → Val X Y} {Inv : B → Prop}

variable {a : Nat} {p : List String} {F : Val X Y → List (Val X Y)}

/-- The body of the loop of `fill_requested`. -/
def fillBody : Expr :=
  match Text.Source_fill_requested.body with
  | .letIn _ _ (.letIn _ _ (.letIn _ _ (.seq (.ite _ (.letIn _ _ (.seq _ (.loop b))) _) _))) => b
  | e => e

/-- The variables of the loop. -/
abbrev fillEnv (L a : Nat) (p : List String) (d n : Nat) : Env X Y :=
  [("diff", .inl (.nat d)), ("source", .inl (.loc a (p ++ ["source"]))), ("buffer", .inr (L + 1)), ("read", .inr L),
    ("request", .inl (.nat n)), ("self", .inl (.loc a p))]

/-- The memory in the loop. -/
abbrev fillCells (F : Val X Y → List (Val X Y)) (es : S → Val X Y) (eb : B → Val X Y) (a : Nat) (p : List String)
    (q f : Val X Y) (x : S × B × Nat) : List (Val X Y) :=
  F (sourceVal (es x.1) (eb x.2.1) q f) ++ [.nat x.2.2, .loc a (p ++ ["buffer"])]

omit [DataSource S X] [Buffer B X] in
/-- The arms of `try!`. -/
abbrev tryArms : List Arm :=
  [.mk (.con "Ok" [.bind false "val"]) (.bool true) (.path "val"), .mk (.con "Err" [.bind false "err"]) (.bool true)
    (.ret (.con "Err" [.call (.path "<E as From<E>>::from") [.path "err"]]))]

theorem eval_true (env : Env X Y) : eval W env (.bool true) = pure (.bool true) := by rw [eval]

theorem tryArms_ok (env : Env X Y) (v : Val X Y) : evalArms W env (.con "Ok" [v]) tryArms = pure v := by
  simp [evalArms, scope_none]

omit [Build] in
theorem from_same (v : Val X Y) : stdCall W "<E as From<E>>::from" [v] = pure v := by
  unfold stdCall
  rw [if_neg (by decide), if_neg (by decide), if_pos (by decide)]

theorem apply_from (v : Val X Y) : apply W (.fn "<E as From<E>>::from") [v] = pure v := by
  rw [apply]
  simp only [Text.find_no_EasFromEfrom]
  simp [from_same, -stdCall]

theorem tryArms_err (env : Env X Y) (v : Val X Y)
    (h : eval W (("err", .inl v) :: env) (.path "<E as From<E>>::from") = pure (.fn "<E as From<E>>::from")) :
    evalArms W env (.con "Err" [v]) tryArms = throw (.ret (.con "Err" [v])) := by
  have he : eval W (("err", .inl v) :: env) (.ret (.con "Err" [.call (.path "<E as From<E>>::from") [.path "err"]]))
    = throw (.ret (.con "Err" [v])) := by
    rw [eval, eval, evals, eval, h]
    simp [-apply, apply_from]
  rw [evalArms]
  simp only [matchPat]
  rw [if_neg (by decide)]
  dsimp only
  rw [evalArms]
  simp only [matchPat, matchPats]
  simp [-apply, -eval, scope_none, he, eval_true]

variable {G : Val X Y → Val X Y → List (Val X Y)}

theorem Source_fill_turn (hF : Ref a p F) (hS : Reads W es) (hB : IsBuffer W eb Inv) {L : Nat} (hL : ∀ v, (F v).length = L)
    (d n : Nat) (q f : Val X Y) (k : Except (Stop X Y) (Val X Y) × List (Val X Y) → M σ α)
    (fin : Except IoError Nat × S × B → α)
    (hk1 : ∀ s b rd, k (.ok .unit, fillCells F es eb a p q f (s, b, rd)) = pure (fin (.ok rd, s, b)))
    (hk2 : ∀ e s b rd, k (.error (.ret (ofIo (.error e))), fillCells F es eb a p q f (s, b, rd)) = pure (fin (.error e, s, b)))
    (x : S × B × Nat) (hx : Inv x.2.1) :
    Both (TurnI (fun x => Inv x.2.1) (fillCells F es eb a p q f) k fin)
      (at_ (eval W (fillEnv L a p d n) fillBody) (fillCells F es eb a p q f x))
      (liftStep (Source.fillStep Build.checked n) x) := by
  obtain ⟨s, b, rd⟩ := x
  rw [liftStep_fill]
  have hc0 : ∀ v t, Ref L [] (fun u => F v ++ [u, t]) := by
    intro v t
    rw [← hL v]
    exact Ref.cell _ [t]
  have hc1 : ∀ v t, Ref (L + 1) [] (fun u => F v ++ [t, u]) := by
    intro v t
    have := Ref.cell (F v ++ [t]) []
    simpa [hL v] using this
  have hA := fun c => (hF.append c)
  have h0R := fun v t u => (hc0 v t).read (σ := σ) u
  have h0W := fun v t u u' => (hc0 v t).write (σ := σ) u u'
  have h1R := fun v t u => (hc1 v t).read (σ := σ) u
  have hbR := fun c s b q f => (ref_buffer (hA c) s q f).read (σ := σ) b
  have hfill := fun c s b hi => hB.fill hS (F := fun s b => F (sourceVal s b q f) ++ c) (fun s => ref_buffer (hA c) s q f)
    (fun b => ref_source (hA c) b q f) s b hi
  simp only [fillBody, Text.Source_fill_requested]
  simp [at_bind, h0R, h0W, h1R, deref_loc', hbR, hB.len, hB.deref_self, hfill]
  refine Both.lift _ fun l _ => ?_
  by_cases h : l < n
  · rw [if_pos h, if_pos h, hfill _ _ _ hx, bind_assoc]
    refine Both.lift _ fun r hr => ?_
    obtain ⟨r, s', b'⟩ := r
    have hi : Inv b' := hB.inv_fill s b _ hx hr
    cases r with
    | error e =>
      simp [ofIo, at_bind, tryArms_err, apply_from]
      exact Both.pure ⟨_, _, rfl, hk2 e s' b' rd⟩
    | ok m =>
      by_cases hm : m = 0
      · simp [evalArms, ofIo, at_bind, tryArms_ok, scope_none, hm]
        exact Both.pure ⟨_, _, rfl, hk1 s' b' rd⟩
      · simp [evalArms, ofIo, at_bind, tryArms_ok, scope_none, hm, h0R, h0W]
        refine Both.lift _ fun rd' _ => ?_
        exact Both.pure ⟨hi, _, rfl⟩
  · rw [if_neg h, if_neg h]
    exact Both.pure ⟨_, _, rfl, hk1 s b rd⟩

theorem Source_fill_requested (hF : Ref a p F) (hS : Reads W es) (hB : IsBuffer W eb Inv) (n : Nat) (s : Source S B)
    (hs : Inv s.buffer) :
    at_ (callFn W Text.Source_fill_requested [.loc a p, .nat n]) (F (ofSource es eb s)) = (do
      let r ← M.lift (s.fillRequested Build.checked n)
      pure (.ok (ofIo r.1), F (ofSource es eb r.2))) := by
  obtain ⟨s, b, q, f⟩ := s
  have hL : ∀ v, (F v).length = (F (sourceVal (es s) (eb b) (.nat q) (ofFlags f))).length := fun v => hF.length v _
  generalize hLe : (F (sourceVal (es s) (eb b) (.nat q) (ofFlags f))).length = L at hL
  have hTake : ∀ v r, ((F v ++ r).take (L + 1)).take L = F v := by
    intro v r
    rw [← hL v]
    exact take_take1 _ _
  have hT : Text.Source_fill_requested.body = .letIn (.bind true "read") (.num 0)
    (.letIn (.bind true "buffer") (.refMut (.field (.path "self") "buffer"))
      (.letIn (.bind false "source") (.refMut (.field (.path "self") "source")) (.seq (.ite (.bin .lt (.method
      (.path "buffer") "len" []) (.path "request")) (.letIn (.bind false "diff") (.bin .sub (.path "request")
      (.method (.path "buffer") "len" [])) (.seq (.method (.path "buffer") "request_space" [.path "diff"])
      (.loop fillBody))) (.tuple [])) (.con "Ok" [.path "read"])))) := rfl
  have hp : Text.Source_fill_requested.params = [.bind false "self", .bind false "request"] := rfl
  have hc0 : ∀ v t, Ref L [] (fun u => F v ++ [u, t]) := by
    intro v t
    rw [← hL v]
    exact Ref.cell _ [t]
  have hc1 : ∀ v t, Ref (L + 1) [] (fun u => F v ++ [t, u]) := by
    intro v t
    have := Ref.cell (F v ++ [t]) []
    simpa [hL v] using this
  have hA := fun c => (hF.append c)
  have h0R := fun v t u => (hc0 v t).read (σ := σ) u
  have h0W := fun v t u u' => (hc0 v t).write (σ := σ) u u'
  have h1R := fun v t u => (hc1 v t).read (σ := σ) u
  have hbR := fun c s b q f => (ref_buffer (hA c) s q f).read (σ := σ) b
  rw [callFn, hT, hp]
  simp [at_bind, at_scope, at_catchRet, scope_none, ofSource, hL, h0R, h0W, h1R, deref_loc', hbR, hB.len, hB.deref_self]
  have hreq := fun c d => hB.request_space (ref_buffer (hA c) (es s) (.nat q) (ofFlags f)) b d
  rw [Source.fillRequested, lift_bind, bind_assoc]
  refine lift_congr' fun l hl => ?_
  dsimp only at hs ⊢
  by_cases h : l < n
  · rw [if_pos h, if_pos h, hl]
    simp [usubB_checked]
    refine lift_congr fun d => ?_
    rw [hreq]
    simp
    refine lift_congr' fun b' hb => ?_
    refine (at_iterate_inv (σ := σ) (fun x : S × B × Nat => Inv x.2.1) (eval W (fillEnv L a p d n) fillBody)
      (liftStep (Source.fillStep Build.checked n)) (fillCells F es eb a p (.nat q) (ofFlags f)) _
      (fun r => (.ok (ofIo r.1), F (sourceVal (es r.2.1) (eb r.2.2) (.nat q) (ofFlags f))))
      (Source_fill_turn W hF hS hB hL d n _ _ _ _ (fun s b rd => ?_) (fun e s b rd => ?_)) (s, b', 0)
      (hB.inv_request _ _ _ hs hb)).trans ?_
    · simp [at_bind, h0R, hTake, ofIo]
    · simp [hTake, ofIo]
    · rw [← loop_lift]
      simp
  · rw [if_neg h, if_neg h]
    simp [at_bind, h0R, hTake, ofIo]

omit [DataSource S X] [Buffer B X] in
theorem callMethod_source (r : Option (Nat × List String)) (s b q f : Val X Y) (m : String) (vs : List (Val X Y)) :
    callMethod W r (sourceVal s b q f) m vs
      = callFound W (Text.find W.verbose "Source" m) r (sourceVal s b q f) m vs := callMethod_eq ..

section
omit [Build]
@[simp] theorem field_source (s b q f : Val X Y) : (sourceVal s b q f).field "source" = some s := by simp [sourceVal]
@[simp] theorem field_buffer (s b q f : Val X Y) : (sourceVal s b q f).field "buffer" = some b := by simp [sourceVal]
@[simp] theorem field_request (s b q f : Val X Y) : (sourceVal s b q f).field "request" = some q := by simp [sourceVal]
@[simp] theorem field_state (s b q f : Val X Y) : (sourceVal s b q f).field "state" = some f := by simp [sourceVal]
@[simp] theorem deref_source (s b q f : Val X Y) : (deref (sourceVal s b q f) : RM σ X Y _) = pure (sourceVal s b q f) := rfl
end

attribute [local simp] callMethod_source

attribute [-simp] Val.field receiver

section
omit [Build]
theorem receiver_loc (env : Env X Y) (e : Expr) (a : Nat) (p : List String) : receiver env e (.loc a p) = some (a, p) := rfl
theorem receiver_con (env : Env X Y) (e : Expr) (c : String) (vs : List (Val X Y)) :
    receiver env e (.con c vs) = place env e := rfl
theorem receiver_source (env : Env X Y) (e : Expr) (s b q f : Val X Y) :
    receiver env e (sourceVal s b q f) = place env e := rfl
theorem receiver_slice (env : Env X Y) (e : Expr) (b : List X) : receiver env e (.slice b) = place env e := rfl
end

attribute [local simp] receiver_loc receiver_con receiver_source receiver_slice

theorem Source_len (hB : IsBuffer W eb Inv) (s : Source S B) :
    callFn W Text.Source_len [ofSource es eb s] = toR (do let n ← M.lift (s.len Build.checked); pure (.nat n)) := by
  rw [callFn]
  simp [Text.Source_len, scope_none, ofSource, hB.len, hB.deref_self, Source.len]

theorem Source_is_empty (hB : IsBuffer W eb Inv) (s : Source S B) :
    callFn W Text.Source_is_empty [ofSource es eb s] = toR (do let n ← M.lift (s.isEmpty Build.checked); pure (.bool n)) := by
  have hl := Source_len (es := es) W hB s
  simp only [ofSource, ofFlags] at hl
  rw [callFn]
  cases hs : s.state.endOfInput <;>
    simp [Text.Source_is_empty, scope_none, ofSource, hl, Source.isEmpty, ofFlags, hs]

theorem Source_capacity (hB : IsBuffer W eb Inv) (s : Source S B) :
    callFn W Text.Source_capacity [ofSource es eb s] = pure (.nat s.capacity) := by
  rw [callFn]
  simp [Text.Source_capacity, scope_none, ofSource, hB.capacity, hB.deref_self, Source.capacity]

theorem Source_buffer (hB : IsBuffer W eb Inv) (s : Source S B) :
    callFn W Text.Source_buffer [ofSource es eb s] = toR (do let b ← M.lift s.bufferSlice; pure (.slice b)) := by
  rw [callFn]
  simp [Text.Source_buffer, scope_none, ofSource, hB.deref, hB.deref_self, Source.bufferSlice]

theorem state_empty : apply W (.fn "ParserState::empty") [] = pure (.con "ParserState" [.nat 0]) := by
  rw [apply]
  simp only [Text.find_no_ParserStateempty]
  · unfold stdCall
    rfl
  · intro v h
    cases h

theorem Source_reset (hF : Ref a p F) (s : Source S B) :
    at_ (callFn W Text.Source_reset [.loc a p]) (F (ofSource es eb s)) = pure (.ok .unit, F (ofSource es eb s.reset)) := by
  have hW := fun f u => (ref_state hF (es s.source) (eb s.buffer) (.nat s.request)).write (σ := σ) f u
  have he : eval W [("self", .inl (.loc a p))] (.call (.path "ParserState::empty") []) = pure (.con "ParserState" [.nat 0]) := by
    rw [eval, eval, evals]
    show (pure (Val.fn "ParserState::empty") >>= _ : RM σ X Y _) = _
    rw [pure_bind, pure_bind, state_empty]
  have hp : place ([("self", .inl (.loc a p))] : Env X Y) (.field (.path "self") "state") = some (a, p ++ ["state"]) := by simp
  have hb : Text.Source_reset.body
    = .seq (.assign (.field (.path "self") "state") (.call (.path "ParserState::empty") [])) (.tuple []) := rfl
  have hq : Text.Source_reset.params = [.bind false "self"] := rfl
  rw [callFn, hb, hq]
  simp only [matchPats, matchPat]
  simp [-eval, scope_none, at_bind, at_catchRet]
  have ha : eval W [("self", .inl (.loc a p))] (.assign (.field (.path "self") "state") (.call (.path "ParserState::empty") []))
    = (do write a (p ++ ["state"]) (.con "ParserState" [.nat 0]); pure .unit) := by
    rw [eval, he, hp]
    rfl
  rw [eval, ha, eval, evals]
  simp [at_bind, ofSource, hW, Source.reset, ofFlags, flagsNat, -at_write]

theorem Source_set_autofill (hF : Ref a p F) (v : Bool) (s : Source S B) :
    at_ (callFn W Text.Source_set_autofill [.loc a p, .bool v]) (F (ofSource es eb s))
      = pure (.ok .unit, F (ofSource es eb (s.setAutofill v))) := by
  have hW := fun f u => (ref_state hF (es s.source) (eb s.buffer) (.nat s.request)).write (σ := σ) f u
  have hR := fun v => hF.read (σ := σ) v
  rw [callFn]
  cases v <;>
    simp [Text.Source_set_autofill, scope_none, ofSource, at_bind, at_catchRet, hW, hR, deref_loc', Source.setAutofill, ofFlags]

theorem Source_consume (hF : Ref a p F) (hB : IsBuffer W eb Inv) (n : Nat) (s : Source S B) :
    at_ (callFn W Text.Source_consume [.loc a p, .nat n]) (F (ofSource es eb s)) = (do
      let s ← M.lift (s.consume Build.checked n)
      pure (.ok .unit, F (ofSource es eb s))) := by
  have hW := hB.consume (ref_buffer hF (es s.source) (.nat s.request) (ofFlags s.state)) s.buffer n
  have hR := fun v => hF.read (σ := σ) v
  rw [callFn]
  simp [Text.Source_consume, scope_none, ofSource, at_bind, at_catchRet, hW, hR, deref_loc', hB.deref_self, hB.receiver, Source.consume]

theorem Source_fill (hF : Ref a p F) (hS : Reads W es) (hB : IsBuffer W eb Inv) (s : Source S B) (hs : Inv s.buffer) :
    at_ (callFn W Text.Source_fill [.loc a p]) (F (ofSource es eb s)) = (do
      let r ← M.lift (s.fill Build.checked)
      pure (.ok (ofIo r.1), F (ofSource es eb r.2))) := by
  have hfr := fun n => Source_fill_requested W hF hS hB n s hs
  simp only [ofSource] at hfr
  have hR := fun v => hF.read (σ := σ) v
  have hW := fun s b q f u => (ref_state hF s b q).write (σ := σ) f u
  rw [callFn, Source.fill]
  simp [Text.Source_fill, scope_none, ofSource, at_bind, at_catchRet, hR, deref_loc', hfr]
  refine lift_congr fun r => ?_
  obtain ⟨r, s'⟩ := r
  cases r with
  | error e => simp [ofIo]
  | ok n =>
    simp [ofIo, scope_none, at_bind, at_catchRet, hR, deref_loc', ofFlags, hW, hB.len, hB.deref_self]
    refine lift_congr fun l => ?_
    by_cases h : max 1 s.request ≤ l
    · simp [h]
    · simp [h]

omit [DataSource S X] [Buffer B X] in
theorem Source_with_buffer (s : S) (b : B) :
    callFn W Text.Source_with_buffer [es s, eb b] = pure (ofSource es eb (.withBuffer s b)) := by
  rw [callFn]
  simp [Text.Source_with_buffer, scope_none, ofSource, sourceVal, Source.withBuffer, ofFlags, flagsNat]

theorem Source_read_data (hF : ∀ v, Ref a p (fun s => G s v)) {c : Nat} {r : List String} (hV : ∀ s, Ref c r (G s))
    (hB : IsBuffer W eb Inv) (s : Source S B) (m n : Nat) (mem : List (Option X)) (cap : Nat) (extra : Nat → Nat) (allocs : Nat) :
    at_ (eval W [("buf", .inl (.con "SliceMut" [.loc c r, .nat m, .nat n])), ("self", .inl (.loc a p))]
        (sndOf Text.Source_read.body)) (G (ofSource es eb s) (.vec mem cap extra allocs)) = (do
      let data ← M.lift (Buffer.deref s.buffer)
      let b ← M.lift (Buffer.consume Build.checked (min (n - m) data.length) s.buffer)
      pure (.ok (.con "Ok" [.nat (min (n - m) data.length)]),
        G (ofSource es eb { s with buffer := b }) (.vec (storeAt mem m n ((data.take (n - m)).map some)) cap extra allocs))) := by
  have hR := fun v u => (hF u).read (σ := σ) v
  have hVR := fun v u => (hV v).read (σ := σ) u
  have hVW := fun v u u' => (hV v).write (σ := σ) u u'
  have hC := fun v n => hB.consume (ref_buffer (hF v) (es s.source) (.nat s.request) (ofFlags s.state)) s.buffer n
  simp only [Text.Source_read, sndOf]
  simp [at_bind, scope_none, at_catchRet, hR, deref_loc', ofSource, hB.deref, hB.deref_self, hB.receiver, hC, store, hVR, hVW,
    readSlice]

theorem Source_read_fill (hF : ∀ v, Ref a p (fun s => G s v)) {c : Nat} {r : List String}
    (hS : Reads W es) (hB : IsBuffer W eb Inv) (s : Source S B) (hs : Inv s.buffer) (m n : Nat) (v : Val X Y) :
    at_ (eval W [("buf", .inl (.con "SliceMut" [.loc c r, .nat m, .nat n])), ("self", .inl (.loc a p))]
        (fstOf Text.Source_read.body)) (G (ofSource es eb s) v) = (do
      let l ← M.lift (s.len Build.checked)
      let r ← if n - m > l then M.lift (s.fillRequested Build.checked (n - m)) else pure (.ok 0, s)
      pure (match r.1 with
        | .ok _ => .ok .unit
        | .error e => .error (.ret (.con "Err" [.con "io::Error" [.nat e.code]])), G (ofSource es eb r.2) v)) := by
  have hR := fun v u => (hF u).read (σ := σ) v
  have hl := Source_len (es := es) W hB s
  have hfr := fun v n => Source_fill_requested W (hF v) hS hB n s hs
  simp only [ofSource] at hfr hl
  simp only [Text.Source_read, fstOf]
  simp [at_bind, scope_none, at_catchRet, hR, deref_loc', ofSource, hl, hfr]
  refine lift_congr fun l => ?_
  by_cases h : l < n - m
  · simp [h]
    refine lift_congr fun r => ?_
    obtain ⟨r, s'⟩ := r
    cases r with
    | error e => simp [ofIo, at_bind, tryArms_err, apply_from]
    | ok n => simp [ofIo, at_bind, tryArms_ok]
  · simp [h]

theorem Source_read (hF : ∀ v, Ref a p (fun s => G s v)) {c : Nat} {r : List String} (hV : ∀ s, Ref c r (G s))
    (hS : Reads W es) (hB : IsBuffer W eb Inv) (s : Source S B) (hs : Inv s.buffer) (m n : Nat) (mem : List (Option X)) (cap : Nat)
    (extra : Nat → Nat) (allocs : Nat) :
    at_ (callFn W Text.Source_read [.loc a p, .con "SliceMut" [.loc c r, .nat m, .nat n]])
        (G (ofSource es eb s) (.vec mem cap extra allocs)) = (do
      let r ← M.lift (s.read Build.checked (n - m))
      pure (.ok (ofIo (r.1.map List.length)), G (ofSource es eb r.2) (.vec (match r.1 with
        | .ok data => storeAt mem m n (data.map some)
        | .error _ => mem) cap extra allocs))) := by
  have hb : Text.Source_read.body = .seq (fstOf Text.Source_read.body) (sndOf Text.Source_read.body) := rfl
  have hp : Text.Source_read.params = [.bind false "self", .bind false "buf"] := rfl
  have h1 := Source_read_fill W hF (c := c) (r := r) hS hB s hs m n (.vec mem cap extra allocs)
  have h2 := fun s => Source_read_data (es := es) W hF hV hB s m n mem cap extra allocs
  rw [callFn, hb, hp, Source.read]
  simp only [matchPats, matchPat]
  simp [scope_none, at_bind, at_catchRet, h1]
  refine lift_congr fun l => ?_
  have tail : ∀ x : Except IoError Nat × Source S B,
      (next_ (fun _ => eval W [("buf", .inl (.con "SliceMut" [.loc c r, .nat m, .nat n])), ("self", .inl (.loc a p))]
        (sndOf Text.Source_read.body)) ((match x.1 with
        | .ok _ => .ok .unit
        | .error e => .error (.ret (.con "Err" [.con "io::Error" [.nat e.code]])) : Except (Stop X Y) (Val X Y)),
          G (ofSource es eb x.2) (.vec mem cap extra allocs)) >>= caught)
      = (M.lift (match x.1 with
        | .error e => .ok (.error e, x.2)
        | .ok _ => (do
          let data ← Buffer.deref x.2.buffer
          let b ← Buffer.consume Build.checked (min (n - m) data.length) x.2.buffer
          .ok (.ok (data.take (min (n - m) data.length)), { x.2 with buffer := b }) : Res (Except IoError (List X) × Source S B)))
        >>= fun r => pure (.ok (ofIo (r.1.map List.length)), G (ofSource es eb r.2) (.vec (match r.1 with
        | .ok data => storeAt mem m n (data.map some)
        | .error _ => mem) cap extra allocs))) := by
    intro x
    obtain ⟨x, s'⟩ := x
    cases x with
    | error e => simp [ofIo, Except.map]
    | ok k =>
      simp [h2, ofIo, Except.map]
      refine lift_congr fun data => ?_
      have ht : (data.map some).take (min (n - m) data.length) = (data.map some).take (n - m) := by
        rw [List.take_eq_take_iff, List.length_map]; omega
      rw [ht]
  by_cases h : l < n - m
  · rw [if_pos h, if_pos h]
    simp [tail]
    rfl
  · rw [if_neg h, if_neg h]
    have := tail (.ok 0, s)
    simp at this
    simp [this]

theorem Source_fill_buf (hF : Ref a p F) (hS : Reads W es) (hB : IsBuffer W eb Inv) (s : Source S B) (hs : Inv s.buffer) :
    at_ (callFn W Text.Source_fill_buf [.loc a p]) (F (ofSource es eb s)) = (do
      let r ← M.lift (s.fillBuf Build.checked)
      pure (.ok (ofExcept .slice (fun e => .con "io::Error" [.nat e.code]) r.1), F (ofSource es eb r.2))) := by
  have hfr := fun n => Source_fill_requested W hF hS hB n s hs
  have hb := fun s => Source_buffer (es := es) W hB s
  simp only [ofSource] at hfr hb
  have hR := fun v => hF.read (σ := σ) v
  rw [callFn, Source.fillBuf]
  simp [Text.Source_fill_buf, scope_none, ofSource, at_bind, at_catchRet, hR, deref_loc', hfr, hB.capacity, hB.deref_self]
  refine lift_congr fun r => ?_
  obtain ⟨r, s'⟩ := r
  cases r with
  | error e => simp [ofIo, at_bind, tryArms_err, apply_from, ofExcept]
  | ok n =>
    simp [ofIo, at_bind, tryArms_ok, ofExcept, hR, deref_loc', hb, Source.bufferSlice]

/-! ### parse -/

theorem Source_parse_fill (hF : Ref a p F) (hS : Reads W es) (hB : IsBuffer W eb Inv) (s : Source S B) (hs : Inv s.buffer)
    (f : Val X Y) :
    at_ (eval W (parseEnv a p f) (fstOf Text.Source_parse.body)) (F (ofSource es eb s))
      = (if s.state.incomplete && s.state.automaticFill then M.lift (s.fill Build.checked) else pure (.ok 0, s))
        >>= fun r => pure (match r.1 with
          | .ok _ => .ok .unit
          | .error e => .error (.ret (.con "Err" [.con "StreamError::IoError" [.con "io::Error" [.nat e.code]]])),
          F (ofSource es eb r.2)) := by
  have hfl := Source_fill W hF hS hB s hs
  simp only [ofSource, ofFlags] at hfl
  have hR := fun v => hF.read (σ := σ) v
  simp only [Text.Source_parse, fstOf]
  simp [at_bind, scope_none, at_catchRet, hR, deref_loc', ofSource, ofFlags, hfl]
  cases h1 : s.state.incomplete <;> cases h2 : s.state.automaticFill <;> simp
  refine lift_congr fun r => ?_
  obtain ⟨r, s'⟩ := r
  cases r with
  | error e => simp [ofIo, at_bind, tryArms_err, apply_from]
  | ok n => simp [ofIo, at_bind, tryArms_ok]

theorem Source_parse_empty (hF : Ref a p F) (hB : IsBuffer W eb Inv) (f : Val X Y) (s : Source S B) :
    at_ (eval W (parseEnv a p f) (fstOf (sndOf Text.Source_parse.body))) (F (ofSource es eb s)) = (do
      let b ← M.lift (s.isEmpty Build.checked)
      pure (if b then .error (.ret (.con "Err" [.con "StreamError::EndOfInput" []])) else .ok .unit, F (ofSource es eb s))) := by
  have he := Source_is_empty (es := es) W hB s
  simp only [ofSource] at he
  have hR := fun v => hF.read (σ := σ) v
  simp only [Text.Source_parse, fstOf, sndOf]
  simp [scope_none, at_bind, deref_loc', hR, ofSource, he]
  refine lift_congr fun b => ?_
  cases b <;> simp

/-- What follows in `let x = a; b`. -/
def letBody : Expr → Expr
  | .letIn _ _ b => b
  | e => e

def letVal : Expr → Expr
  | .letIn _ v _ => v
  | e => e

/-- The variables. -/
abbrev parseEnv' (a : Nat) (p : List String) (f : Val X Y) (m : Mode) : Env X Y :=
  ("input_state", .inl (ofMode m)) :: parseEnv a p f

theorem Source_parse_mode (hF : Ref a p F) (f : Val X Y) (s : Source S B) :
    at_ (eval W (parseEnv a p f) (letVal (sndOf (sndOf Text.Source_parse.body)))) (F (ofSource es eb s))
      = pure (.ok (ofMode (if s.state.endOfInput then Mode.endOfInput else Mode.default)), F (ofSource es eb s)) := by
  have hR := fun v => hF.read (σ := σ) v
  simp only [Text.Source_parse, letVal, sndOf]
  cases hs : s.state.endOfInput <;>
    simp [scope_none, at_bind, deref_loc', hR, ofSource, ofFlags, hs, ofMode]

theorem Source_parse_call (hF : Ref a p F) (hB : IsBuffer W eb Inv) (t : T → Val X Y) (e : E → Val X Y) (f : Val X Y)
    (g : Parser σ X T E) (hp : IsParser W f t e g) (s : Source S B) (m : Mode) :
    at_ (eval W (parseEnv' a p f m) (scrutinee (letBody (sndOf (sndOf Text.Source_parse.body))))) (F (ofSource es eb s)) = (do
      let b ← M.lift (Buffer.deref s.buffer)
      let r ← g ⟨m, b⟩
      pure (.ok (match r with
        | .data i a => .con "State::Data" [ofInput i, t a]
        | .error b a => .con "State::Error" [.slice b, e a]
        | .incomplete n => .con "State::Incomplete" [.nat n]), F (ofSource es eb s))) := by
  have hR := fun v => hF.read (σ := σ) v
  simp only [Text.Source_parse, letBody, sndOf, scrutinee]
  simp [scope_none, at_bind, deref_loc', hR, ofSource, hB.deref, hB.deref_self]
  refine lift_congr fun b => ?_
  rw [hp]
  simp [ofResult, at_bind]
  rfl

theorem Source_parse_arms (hF : Ref a p F) (hB : IsBuffer W eb Inv) (t : T → Val X Y) (e : E → Val X Y) (f : Val X Y)
    (s : Source S B) (m : Mode) (r : ParseResult X T E) :
    at_ (evalArms W (parseEnv' a p f m) (match r with
        | .data i a => .con "State::Data" [ofInput i, t a]
        | .error b a => .con "State::Error" [.slice b, e a]
        | .incomplete n => .con "State::Incomplete" [.nat n])
        (armsOf (letBody (sndOf (sndOf Text.Source_parse.body))))) (F (ofSource es eb s)) = (do
      let r ← (match r with
        | .data remainder data => do
          let l ← M.lift (Buffer.len Build.checked s.buffer)
          let d ← M.lift (usubB Build.checked l remainder.buf.length)
          let b ← M.lift (Buffer.consume Build.checked d s.buffer)
          pure (.ok data, { s with buffer := b })
        | .error remainder err => do
          let l ← M.lift (Buffer.len Build.checked s.buffer)
          let d ← M.lift (usubB Build.checked l remainder.length)
          let b ← M.lift (Buffer.consume Build.checked d s.buffer)
          pure (.error (.parseError remainder err), { s with buffer := b })
        | .incomplete n => do
          let l ← M.lift (Buffer.len Build.checked s.buffer)
          let request ← M.lift (uaddB Build.checked l n)
          let s := { s with request := request }
          if s.state.endOfInput then
            pure (.error (.incomplete request), s)
          else
            pure (.error .retry, { s with state := { s.state with incomplete := true } }) :
          M σ (Except (StreamError X E) T × Source S B))
      pure (.ok (ofExcept t (ofStreamError e) r.1), F (ofSource es eb r.2))) := by
  have hR := fun v => hF.read (σ := σ) v
  have hC := fun n => hB.consume (ref_buffer hF (es s.source) (.nat s.request) (ofFlags s.state)) s.buffer n
  have hQ := fun s b f q u => (ref_request hF s b f).write (σ := σ) q u
  have hW := fun s b q f u => (ref_state hF s b q).write (σ := σ) f u
  simp only [Text.Source_parse, letBody, sndOf, armsOf]
  cases r with
  | data i a =>
    have hi : callFn W Text.Input_buffer [.con "Input" [ofMode i.mode, .slice i.buf]] = pure (.slice i.buf) := by
      have := Input_buffer W i
      simpa only [ofInput] using this
    simp [hi, evalArms, scope_none, at_bind, deref_loc', hR, hC, ofSource, hB.len, hB.deref_self, hB.receiver,
      ofExcept, usubB_checked, ofInput]
  | error b a =>
    simp [evalArms, scope_none, at_bind, deref_loc', hR, hC, ofSource, hB.len, hB.deref_self, hB.receiver,
      ofExcept, ofStreamError, usubB_checked]
  | incomplete n =>
    simp [evalArms, scope_none, at_bind, deref_loc', hR, hQ, hW, ofSource, hB.len, hB.deref_self, hB.receiver,
      ofExcept, ofStreamError, usubB_checked, ofFlags, -at_write]
    refine lift_congr fun l => ?_
    refine lift_congr fun q => ?_
    cases hs : s.state.endOfInput <;>
      simp [hs, hR, hW, scope_none, at_bind, deref_loc', ofExcept, ofStreamError, ofFlags, -at_write]

/-- What follows the filling. -/
def parseRest (chk : Bool) (f : Parser σ X T E) (x : Except IoError Nat × Source S B) :
    M σ (Except (StreamError X E) T × Source S B) := do
  let (r, s) := x
  match r with
  | .error e => pure (.error (.ioError e), s)
  | .ok _ =>
    if ← M.lift (s.isEmpty chk) then
      pure (.error .endOfInput, s)
    else
      let mode := if s.state.endOfInput then Mode.endOfInput else Mode.default
      let b ← M.lift (Buffer.deref s.buffer)
      match ← f ⟨mode, b⟩ with
      | .data remainder data =>
        let l ← M.lift (Buffer.len chk s.buffer)
        let d ← M.lift (usubB chk l remainder.buf.length)
        let b ← M.lift (Buffer.consume chk d s.buffer)
        pure (.ok data, { s with buffer := b })
      | .error remainder err =>
        let l ← M.lift (Buffer.len chk s.buffer)
        let d ← M.lift (usubB chk l remainder.length)
        let b ← M.lift (Buffer.consume chk d s.buffer)
        pure (.error (.parseError remainder err), { s with buffer := b })
      | .incomplete n =>
        let l ← M.lift (Buffer.len chk s.buffer)
        let request ← M.lift (uaddB chk l n)
        let s := { s with request := request }
        if s.state.endOfInput then
          pure (.error (.incomplete request), s)
        else
          pure (.error .retry, { s with state := { s.state with incomplete := true } })

theorem parse_rest (chk : Bool) (f : Parser σ X T E) (s : Source S B) :
    s.parse chk f = (if s.state.incomplete && s.state.automaticFill then M.lift (s.fill chk) else pure (.ok 0, s))
      >>= parseRest chk f := by
  unfold Source.parse
  split <;> rfl

theorem Source_parse (hF : Ref a p F) (hS : Reads W es) (hB : IsBuffer W eb Inv) (t : T → Val X Y) (e : E → Val X Y) (f : Val X Y)
    (g : Parser σ X T E) (hp : IsParser W f t e g) (s : Source S B) (hs : Inv s.buffer) :
    at_ (callFn W Text.Source_parse [.loc a p, f]) (F (ofSource es eb s)) = (do
      let r ← s.parse Build.checked g
      pure (.ok (ofExcept t (ofStreamError e) r.1), F (ofSource es eb r.2))) := by
  have hb : Text.Source_parse.body = .seq (fstOf Text.Source_parse.body) (.seq (fstOf (sndOf Text.Source_parse.body))
    (.letIn (.bind false "input_state") (letVal (sndOf (sndOf Text.Source_parse.body)))
      (.mtch (scrutinee (letBody (sndOf (sndOf Text.Source_parse.body))))
        (armsOf (letBody (sndOf (sndOf Text.Source_parse.body))))))) := rfl
  have hpar : Text.Source_parse.params = [.bind false "self", .bind false "f"] := rfl
  have h1 := Source_parse_fill W hF hS hB s hs f
  have h2 := fun s => Source_parse_empty (es := es) W hF hB f s
  have h3 := fun s => Source_parse_mode (es := es) (eb := eb) W hF f s
  have h4 := fun s m => Source_parse_call (es := es) W hF hB t e f g hp s m
  have h5 := fun s m r => Source_parse_arms (es := es) W hF hB t e f s m r
  rw [callFn, hb, hpar]
  simp only [matchPats, matchPat]
  simp [scope_none, at_bind, at_catchRet]
  rw [h1, parse_rest, bind_assoc, bind_assoc]
  refine congrArg _ (funext fun r => ?_)
  obtain ⟨r, s'⟩ := r
  cases r with
  | error e => simp [ofExcept, ofStreamError, parseRest]
  | ok n =>
    simp [at_bind, h2, parseRest]
    refine lift_congr fun b => ?_
    cases b with
    | true => simp [ofExcept, ofStreamError]
    | false =>
      simp [at_bind, h3, scope_none, h4]
      refine lift_congr fun b => ?_
      refine congrArg _ (funext fun r => ?_)
      rw [h5]
      cases r <;> simp

end Chomp.Rust
