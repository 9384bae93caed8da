import Verif.Rust.Streams
import Verif.Rust.Laws

/-
The text of the functions which the other modules leave: equality of `StreamError`, `is_empty` of buffers, and what
errors print.
-/

set_option linter.unusedSimpArgs false

namespace Chomp.Rust

variable {σ X Y B E : Type} [Build] (W : World σ X Y)

attribute [local simp] apply eval evals callStd matchPats matchPat find Val.field
  index constant stdByMut stdMut optV indexSlice indexVec indexMut place

attribute [local simp] getField setField Val.set Val.at Val.put

attribute [-simp] bind_pure_comp

attribute [local simp] panic_bind ub_bind

attribute [local congr] bind_left bind_left' next_left

/-! ### Equality -/

theorem nat_eq (m n : Nat) : binop W .eq (.nat m) (.nat n) = pure (.bool (m == n)) := rfl
theorem slice_eq (a b : List X) : binop W .eq (.slice a) (.slice b) = (do let r ← sliceEq W a b; pure (.bool r)) := rfl

omit [Build] in
theorem itemsEq_pure [BEq X] (hx : ∀ x y, W.eq x y = pure (x == y)) (a b : List X) (h : a.length = b.length) :
    itemsEq W a b = pure (a == b) := by
  induction a generalizing b with
  | nil => cases b with
    | nil => rfl
    | cons y b => cases h
  | cons x a ih =>
    cases b with
    | nil => cases h
    | cons y b =>
      rw [itemsEq, hx, pure_bind, ih b (by simpa using h)]
      show _ = pure (x == y && a == b)
      cases x == y <;> rfl

omit [Build] in
theorem sliceEq_pure [BEq X] (hx : ∀ x y, W.eq x y = pure (x == y)) (a b : List X) :
    sliceEq W a b = pure (a == b) := by
  rw [sliceEq]
  split
  · rename_i h; exact itemsEq_pure W hx a b h
  · rename_i h
    have : (a == b) = false := by
      induction a generalizing b with
      | nil => cases b with
        | nil => exact absurd rfl h
        | cons y b => rfl
      | cons x a ih =>
        cases b with
        | nil => rfl
        | cons y b =>
          show (x == y && a == b) = false
          rw [ih b (by simpa using h), Bool.and_false]
    rw [this]

/-- In the world `W`, `==` on values written as `e` says is `==` of the model. -/
def EqOf [BEq E] (e : E → Val X Y) : Prop := ∀ x y, binop W .eq (e x) (e y) = pure (.bool (x == y))

theorem EqOf.other [BEq E] {y : E → Y} (h : ∀ x z, W.eqOther (y x) (y z) = pure (x == z)) :
    EqOf W (fun x : E => .other (y x)) := by
  intro x z
  show (do let r ← W.eqOther (y x) (y z); pure (Val.bool r)) = _
  rw [h]
  rfl

/-- Derived equality. -/
theorem EqOf.error [DecidableEq X] (hx : ∀ x y, W.eq x y = pure (x == y)) :
    EqOf W (ofError : Error X → Val X Y) := by
  have con (x y : Error X) : binop W .eq (ofError x) (ofError y) = (do
      let r ← valEq W (ofError x) (ofError y)
      pure (Val.bool r)) := by
    cases x <;> cases y <;> rfl
  intro x y
  rw [con]
  rw [show (x == y) = decide (x = y) from rfl]
  cases x <;> cases y <;> simp [ofError, valEq, valsEq, hx, sliceEq_pure W hx]
  all_goals split <;> simp_all

set_option maxHeartbeats 2000000 in
theorem StreamError_eq [BEq X] [BEq E] {e : E → Val X Y} (hx : ∀ x y, W.eq x y = pure (x == y)) (he : EqOf W e)
    (s t : StreamError X E) :
    callFn W Text.StreamError_eq [ofStreamError e s, ofStreamError e t] = pure (.bool (s.eq t)) := by
  rw [callFn]
  cases s <;> cases t <;>
    simp [Text.StreamError_eq, ofStreamError, scope_none, evalArms, StreamError.eq, sliceEq_pure W hx, he _ _, nat_eq, slice_eq]
  rename_i b _ b' _
  cases b == b' <;> simp

/-! ### Buffers -/

theorem Buffer_is_empty [Buffer B X] {eb : B → Val X Y} {Inv : B → Prop} (hB : IsBuffer W eb Inv) (b : B) :
    callFn W Text.Buffer_is_empty [eb b]
      = toR (do let n ← M.lift (Buffer.len Build.checked b); pure (.bool (n == 0))) := by
  rw [callFn]
  simp [Text.Buffer_is_empty, scope_none, hB.len, hB.deref_self, hB.receiver, nat_eq]

/-! ### Text -/

theorem nums (cs : List Char) (env : Env X Y) :
    evals W env (cs.map fun c => .num c.toNat) = pure (cs.map fun c => .nat c.toNat) := by
  induction cs with
  | nil => simp
  | cons c cs ih => simp [ih]

theorem eval_str (s : String) (env : Env X Y) : eval W env (.str s) = pure (ofText s.toList) := by
  rw [Expr.str, eval, nums, pure_bind]
  rfl

omit [Build] in
theorem ofText_injective (s t : Fmt.Text) (h : (ofText s : Val X Y) = ofText t) : s = t := by
  injection h with _ h
  refine List.map_inj_right (f := fun c : Char => (Val.nat c.toNat : Val X Y)) ?_ |>.mp h
  intro a b h
  injection h with h
  exact Char.toNat_inj.mp h

section
omit [Build]

/-- The value is shown as the text. -/
def Shows (v : Val X Y) (t : Fmt.Text) : Prop := shown W v = some (t.map fun c => .nat c.toNat)

theorem shows_text (t : Fmt.Text) : Shows W (ofText t) t := rfl
theorem shows_item (x : X) : Shows W (.con "Debug" [.item x]) (W.debug x) := rfl
theorem shows_slice (b : List X) : Shows W (.con "Debug" [.slice b]) (Fmt.slice W.debug b) := rfl

variable {a : Nat} {p : List String} {F : Val X Y → List (Val X Y)}

theorem writeFmt_cons (h : Ref a p F) (t u : Fmt.Text) (v : Val X Y) (vs : List (Val X Y)) (hv : Shows W v u) :
    at_ (writeFmt W a p (v :: vs)) (F (ofText t)) = at_ (writeFmt W a p vs) (F (ofText (t ++ u))) := by
  rw [writeFmt, show shown W v = _ from hv]
  simp [at_bind, h.read, h.write, ofText]

theorem write_one (h : Ref a p F) (t u : Fmt.Text) (v : Val X Y) (hv : Shows W v u) :
    at_ (writeFmt W a p [v]) (F (ofText t)) = pure (.ok (.con "Ok" [.unit]), F (ofText (t ++ u))) := by
  rw [writeFmt_cons W h t u v _ hv]
  rfl

theorem write_two (h : Ref a p F) (t u u' : Fmt.Text) (v v' : Val X Y) (hv : Shows W v u) (hv' : Shows W v' u') :
    at_ (writeFmt W a p [v, v']) (F (ofText t)) = pure (.ok (.con "Ok" [.unit]), F (ofText (t ++ (u ++ u')))) := by
  rw [writeFmt_cons W h t u v _ hv, write_one W h _ u' v' hv', List.append_assoc]

theorem std_write (parts : List (Val X Y)) : stdCall W "write!" (.loc a p :: parts) = writeFmt W a p parts := by
  simp [stdCall]

end

variable {a : Nat} {p : List String} {F : Val X Y → List (Val X Y)}

/-- `write!(f, s)` -/
theorem eval_write_one {env : Env X Y} (hf : find env "f" = some (.inl (.loc a p))) (hw : find env "write!" = none)
    (s : String) :
    eval W env (.call (.path "write!") [.path "f", .str s]) = writeFmt W a p [ofText s.toList] := by
  simp [hf, hw, eval_str, std_write]

/-- `write!(f, s, *x)` -/
theorem eval_write_two {env : Env X Y} (hf : find env "f" = some (.inl (.loc a p))) (hw : find env "write!" = none)
    (s x : String) (v : Val X Y) (hx : find env x = some (.inl v)) (hv : (deref v : RM σ X Y _) = pure v) :
    eval W env (.call (.path "write!") [.path "f", .str s, .con "Debug" [.deref (.path x)]])
      = writeFmt W a p [ofText s.toList, .con "Debug" [v]] := by
  simp [hf, hw, hx, hv, eval_str, std_write]

/-- The `match` of `fmt`. -/
theorem match_fmt (env : Env X Y) (e : Error X) (he : e ≠ .generic) (hs : find env "self" = some (.inl (ofError e)))
    (x1 x2 x3 : Expr) :
    eval W env (.mtch (.deref (.path "self")) [.mk (.con "Error::Expected" [.bind false "c"]) (.bool true) x1,
      .mk (.con "Error::Unexpected" []) (.bool true) x2, .mk (.con "Error::String" [.bind false "s"]) (.bool true) x3])
    = match e with
      | .expected x => eval W (("c", .inl (.item x)) :: env) x1
      | .unexpected => eval W env x2
      | .string b => eval W (("s", .inl (.slice b)) :: env) x3
      | .generic => stuck := by
  cases e with
  | generic => exact absurd rfl he
  | expected x => simp [hs, ofError, evalArms, scope_none]
  | unexpected => simp [hs, ofError, evalArms, scope_none]
  | string b => simp [hs, ofError, evalArms, scope_none]

/-- The `match` of `description`. -/
theorem match_description (env : Env X Y) (e : Error X) (he : e ≠ .generic)
    (hs : find env "self" = some (.inl (ofError e))) (x1 x2 x3 : Expr) :
    eval W env (.mtch (.deref (.path "self")) [.mk (.con "Error::Expected" [.wild]) (.bool true) x1,
      .mk (.con "Error::Unexpected" []) (.bool true) x2, .mk (.con "Error::String" [.wild]) (.bool true) x3])
    = match e with
      | .expected _ => eval W env x1
      | .unexpected => eval W env x2
      | .string _ => eval W env x3
      | .generic => stuck := by
  cases e with
  | generic => exact absurd rfl he
  | expected x => simp [hs, ofError, evalArms, scope_none]
  | unexpected => simp [hs, ofError, evalArms, scope_none]
  | string b => simp [hs, ofError, evalArms, scope_none]

/-- A function of `self` and `f`. -/
theorem callFn_two (v w : Val X Y) (x : Expr) :
    callFn W { params := [.bind false "self", .bind false "f"], body := x } [v, w]
      = catchRet (eval W [("f", .inl w), ("self", .inl v)] x) := by
  rw [callFn]
  simp [scope_none]

/-- A function of `self`. -/
theorem callFn_one (v : Val X Y) (x : Expr) :
    callFn W { params := [.bind false "self"], body := x } [v] = catchRet (eval W [("self", .inl v)] x) := by
  rw [callFn]
  simp [scope_none]

omit [Build] in
theorem at_catchRet_ok {x : RM σ X Y (Val X Y)} {st st' : List (Val X Y)} {v : Val X Y}
    (h : at_ x st = pure (.ok v, st')) : at_ (catchRet x) st = pure (.ok v, st') := by
  rw [at_catchRet, h]
  rfl

theorem Error_fmt_verbose (h : Ref a p F) (e : Error X) (he : e ≠ .generic) (t : Fmt.Text) :
    at_ (callFn W Text.Error_fmt_verbose [ofError e, .loc a p]) (F (ofText t))
      = pure (.ok (.con "Ok" [.unit]), F (ofText (t ++ Fmt.display W.debug e))) := by
  rw [Text.Error_fmt_verbose, callFn_two]
  apply at_catchRet_ok
  rw [match_fmt W _ e he rfl]
  cases e with
  | generic => exact absurd rfl he
  | expected x =>
    dsimp only
    rw [eval_write_two W (a := a) (p := p) rfl rfl _ "c" (.item x) rfl rfl,
      write_two W h t _ _ _ _ (shows_text W _) (shows_item W x)]
    rfl
  | unexpected =>
    dsimp only
    rw [eval_write_one W (a := a) (p := p) rfl rfl, write_one W h t _ _ (shows_text W _)]
    rfl
  | string b =>
    dsimp only
    rw [eval_write_two W (a := a) (p := p) rfl rfl _ "s" (.slice b) rfl rfl,
      write_two W h t _ _ _ _ (shows_text W _) (shows_slice W b)]
    rfl

theorem Error_fmt_terse (h : Ref a p F) (t : Fmt.Text) :
    at_ (callFn W Text.Error_fmt_terse [ofError .generic, .loc a p]) (F (ofText t))
      = pure (.ok (.con "Ok" [.unit]), F (ofText (t ++ Fmt.display W.debug .generic))) := by
  rw [Text.Error_fmt_terse, callFn_two]
  apply at_catchRet_ok
  rw [eval_write_one W (a := a) (p := p) rfl rfl, write_one W h t _ _ (shows_text W _)]
  rfl

theorem Error_description_verbose (e : Error X) (he : e ≠ .generic) :
    callFn W Text.Error_description_verbose [ofError e] = pure (ofText (Fmt.description e)) := by
  rw [Text.Error_description_verbose, callFn_one, match_description W _ e he rfl]
  cases e with
  | generic => exact absurd rfl he
  | expected x => dsimp only; rw [eval_str]; rfl
  | unexpected => dsimp only; rw [eval_str]; rfl
  | string b => dsimp only; rw [eval_str]; rfl

theorem Error_description_terse :
    callFn W Text.Error_description_terse [ofError .generic] = pure (ofText (Fmt.description (I := X) .generic)) := by
  rw [Text.Error_description_terse, callFn_one, eval_str]
  rfl

end Chomp.Rust
