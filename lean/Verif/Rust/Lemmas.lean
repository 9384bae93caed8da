import Verif.Rust.Encode

/-
Lemmas about the interpreter.
-/

namespace Chomp.Rust

variable {σ X Y : Type}

@[simp] theorem toR_pure (a : α) : (toR (pure a) : RM σ X Y α) = pure a := rfl

@[simp] theorem toR_bind (x : M σ α) (f : α → M σ β) :
    (toR (x >>= f) : RM σ X Y β) = toR x >>= fun a => toR (f a) := by
  funext st w
  simp only [toR, ExceptT.lift, StateT.lift, bind, ExceptT.bind, ExceptT.bindCont, ExceptT.mk, StateT.bind,
    Functor.map, StateT.map, pure, StateT.pure]
  cases x w with
  | ok a => rfl
  | _ => rfl

@[simp] theorem toR_ite (c : Prop) [Decidable c] (x y : M σ α) :
    (toR (if c then x else y) : RM σ X Y α) = if c then toR x else toR y := by split <;> rfl

@[simp] theorem observe_pure (a : α) : observe (pure a : RM σ X Y α) = pure (.ok a) := rfl
@[simp] theorem observe_throw (s : Stop X Y) : observe (throw s : RM σ X Y α) = pure (.error s) := rfl
@[simp] theorem observe_toR (x : M σ α) :
    observe (toR x : RM σ X Y α) = toR x >>= fun a => pure (.ok a) := by
  funext st w
  simp only [observe, toR, ExceptT.lift, StateT.lift, bind, ExceptT.bind, ExceptT.bindCont, ExceptT.mk, StateT.bind,
    Functor.map, StateT.map, pure, StateT.pure, ExceptT.pure, ExceptT.run]
  cases x w <;> rfl

@[simp] theorem observe_bind_toR (x : M σ α) (f : α → RM σ X Y β) :
    observe (toR x >>= f : RM σ X Y β) = toR x >>= fun a => observe (f a) := by
  funext st w
  simp only [observe, toR, ExceptT.lift, StateT.lift, bind, ExceptT.bind, ExceptT.bindCont, ExceptT.mk, StateT.bind,
    Functor.map, StateT.map, pure, StateT.pure, ExceptT.run]
  cases x w <;> rfl

@[simp] theorem observe_ite (c : Prop) [Decidable c] (x y : RM σ X Y α) :
    observe (if c then x else y) = if c then observe x else observe y := by split <;> rfl

@[simp] theorem catchRet_pure (v : Val X Y) : catchRet (pure v : RM σ X Y _) = pure v := rfl
@[simp] theorem catchRet_ret (v : Val X Y) : catchRet (throw (.ret v) : RM σ X Y _) = pure v := rfl

@[simp] theorem catchRet_toR (x : M σ (Val X Y)) : catchRet (toR x : RM σ X Y _) = toR x := by
  simp [catchRet]

@[simp] theorem catchRet_bind_toR (x : M σ α) (f : α → RM σ X Y (Val X Y)) :
    catchRet (toR x >>= f : RM σ X Y _) = toR x >>= fun a => catchRet (f a) := by
  simp [catchRet]

@[simp] theorem catchRet_ite (c : Prop) [Decidable c] (x y : RM σ X Y (Val X Y)) :
    catchRet (if c then x else y) = if c then catchRet x else catchRet y := by split <;> rfl

@[simp] theorem must_some (a : α) : (must (some a) : RM σ X Y α) = pure a := rfl
@[simp] theorem asBool_bool (b : Bool) : (asBool (.bool b : Val X Y) : RM σ X Y Bool) = pure b := rfl

@[simp] theorem throw_bind (s : Stop X Y) (f : α → RM σ X Y β) : ((throw s : RM σ X Y α) >>= f) = throw s := rfl

@[simp] theorem toR_panic_bind (f : α → RM σ X Y β) :
    ((toR M.panic : RM σ X Y α) >>= f) = toR M.panic := rfl

section
@[simp] theorem typeOf_slice (b : List X) : typeOf (.slice b : Val X Y) = "-" := rfl
@[simp] theorem typeOf_item (x : X) : typeOf (.item x : Val X Y) = "-" := rfl
@[simp] theorem typeOf_other (y : Y) : typeOf (.other y : Val X Y) = "-" := rfl
@[simp] theorem typeOf_iter (c : Bool) (b : List X) : typeOf (.iter c b : Val X Y) = "-" := rfl
@[simp] theorem typeOf_nat (n : Nat) : typeOf (.nat n : Val X Y) = "usize" := rfl
@[simp] theorem typeOf_con (c : String) (vs : List (Val X Y)) : typeOf (.con c vs) = c := rfl
@[simp] theorem typeOf_strct (c : String) (fs : List (String × Val X Y)) : typeOf (.strct c fs) = c := rfl

@[simp] theorem deref_bool (b : Bool) : (deref (.bool b) : RM σ X Y _) = pure (.bool b) := rfl
@[simp] theorem deref_slice (b : List X) : (deref (.slice b) : RM σ X Y _) = pure (.slice b) := rfl
@[simp] theorem deref_item (x : X) : (deref (.item x) : RM σ X Y _) = pure (.item x) := rfl
@[simp] theorem deref_other (x : Y) : (deref (.other x) : RM σ X Y _) = pure (.other x) := rfl
@[simp] theorem deref_iter (c : Bool) (b : List X) : (deref (.iter c b) : RM σ X Y _) = pure (.iter c b) := rfl
@[simp] theorem deref_nat (n : Nat) : (deref (.nat n) : RM σ X Y _) = pure (.nat n) := rfl
@[simp] theorem deref_tuple (vs : List (Val X Y)) : (deref (.tuple vs) : RM σ X Y _) = pure (.tuple vs) := rfl
@[simp] theorem deref_con (c : String) (vs : List (Val X Y)) :
    (deref (.con c vs) : RM σ X Y _) = pure (.con c vs) := rfl
@[simp] theorem deref_strct (c : String) (fs : List (String × Val X Y)) :
    (deref (.strct c fs) : RM σ X Y _) = pure (.strct c fs) := rfl

variable (W : World σ X Y)

@[simp] theorem std_len (b : List X) : stdMethod W (.slice b) "len" [] = pure (.nat b.length) := by simp [stdMethod]
@[simp] theorem std_first (b : List X) : stdMethod W (.slice b) "first" [] = pure (optV (b.head?.map .item)) := by
  simp [stdMethod]
@[simp] theorem std_iter (b : List X) : stdMethod W (.slice b) "iter" [] = pure (.iter false b) := by simp [stdMethod]
@[simp] theorem std_to_vec (b : List X) : stdMethod W (.slice b) "to_vec" [] = pure (.slice b) := by simp [stdMethod]
@[simp] theorem std_cloned (c : Bool) (b : List X) : stdMethod W (.iter c b) "cloned" [] = pure (.iter true b) := by
  simp [stdMethod]
@[simp] theorem std_none_cloned : stdMethod W (.con "None" []) "cloned" [] = pure (.con "None" []) := by
  simp [stdMethod]
@[simp] theorem std_none_unwrap : stdMethod W (.con "None" []) "unwrap" [] = M.panic := by simp [stdMethod]
@[simp] theorem std_none_is_none : stdMethod W (.con "None" []) "is_none" [] = pure (.bool true) := by
  simp [stdMethod]
@[simp] theorem std_some_cloned (x : X) :
    stdMethod W (.con "Some" [.item x]) "cloned" [] = (do let y ← W.clone x; pure (.con "Some" [.item y])) := by
  simp [stdMethod]
@[simp] theorem std_some_unwrap (v : Val X Y) : stdMethod W (.con "Some" [v]) "unwrap" [] = pure v := by
  cases v <;> simp [stdMethod]
@[simp] theorem std_some_is_none (v : Val X Y) :
    stdMethod W (.con "Some" [v]) "is_none" [] = pure (.bool false) := by
  cases v <;> simp [stdMethod]
@[simp] theorem std_unwrap_ok (y : Y) : stdMethod W (.con "Ok" [.other y]) "unwrap_ok" [] = pure (.other y) := by
  simp [stdMethod]
@[simp] theorem std_contains (a b : Nat) :
    stdMethod W (.con "InputMode" [.nat a]) "contains" [.con "InputMode" [.nat b]]
      = pure (.bool (a &&& b == b)) := by simp [stdMethod]
@[simp] theorem std_clone (y : Y) :
    stdMethod W (.other y) "clone" [] = (do let z ← W.cloneOther y; pure (.other z)) := by simp [stdMethod]
@[simp] theorem std_by_ref (a : Nat) (p : List String) (v : Val X Y) :
    stdMut W a p v "by_ref" [] = pure (.con "ByRef" [.loc a p]) := by simp [stdMut]
@[simp] theorem std_inspect (a : Nat) (p : List String) (f : Val X Y) :
    stdMethod W (.con "ByRef" [.loc a p]) "inspect" [f] = pure (.con "Inspect" [.loc a p, f]) := by simp [stdMethod]
end

@[simp] theorem typeOf_ofInput (i : Input X) : typeOf (ofInput i : Val X Y) = "Input" := rfl
@[simp] theorem typeOf_ofResult (t : T → Val X Y) (e : E → Val X Y) (r : ParseResult X T E) :
    typeOf (ofResult t e r) = "ParseResult" := rfl
@[simp] theorem deref_ofInput (i : Input X) : (deref (ofInput i) : RM σ X Y _) = pure (ofInput i) := rfl
@[simp] theorem deref_ofResult (t : T → Val X Y) (e : E → Val X Y) (r : ParseResult X T E) :
    (deref (ofResult t e r) : RM σ X Y _) = pure (ofResult t e r) := rfl

theorem toR_congr {x : M σ α} {f g : α → RM σ X Y β} (h : ∀ a, f a = g a) : (toR x >>= f) = (toR x >>= g) := by
  rw [funext h]

variable [Build] (W : World σ X Y)

/-- Call a method which is the function `o` of this crate, or not of this crate. -/
def callFound (o : Option Fn) (r : Option (Nat × List String)) (v : Val X Y) (m : String) (vs : List (Val X Y)) :
    RM σ X Y (Val X Y) :=
  match o with
  | some f =>
    if f.byMut then do
      let (a, p) ← must r
      callFn W f (.loc a p :: vs)
    else callFn W f (v :: vs)
  | none =>
    if stdByMut v m then do
      let (a, p) ← must r
      stdMut W a p v m vs
    else callStd W v m vs

theorem callMethod_eq (r : Option (Nat × List String)) (v : Val X Y) (m : String) (vs : List (Val X Y)) :
    callMethod W r v m vs = callFound W (Text.find W.verbose (typeOf v) m) r v m vs := by
  rw [callMethod]
  cases Text.find W.verbose (typeOf v) m <;> rfl

@[simp] theorem callFound_some (f : Fn) (r : Option (Nat × List String)) (v : Val X Y) (m : String)
    (vs : List (Val X Y)) :
    callFound W (some f) r v m vs
      = if f.byMut then (must r >>= fun r => callFn W f (.loc r.1 r.2 :: vs)) else callFn W f (v :: vs) := rfl

@[simp] theorem callFound_none (r : Option (Nat × List String)) (v : Val X Y) (m : String) (vs : List (Val X Y)) :
    callFound W none r v m vs
      = if stdByMut v m then (must r >>= fun r => stdMut W r.1 r.2 v m vs) else callStd W v m vs := rfl

/-- Running a function which behaves like `m`. -/
theorem run_eq {f : Fn} {vs : List (Val X Y)} {m : M σ (Val X Y)} (h : callFn W f vs = toR m) :
    run W f vs = m := by
  funext w
  simp only [run, h, toR, ExceptT.lift, StateT.lift, bind, StateT.bind, ExceptT.run, ExceptT.mk, StateT.run,
    Functor.map, StateT.map, pure, StateT.pure]
  cases m w <;> rfl

/-! ### With cells -/

/-- Run code on given cells. -/
def at_ (x : RM σ X Y α) (st : List (Val X Y)) : M σ (Except (Stop X Y) α × List (Val X Y)) := x st

omit [Build] in
theorem ext_at {x y : RM σ X Y α} (h : ∀ st, at_ x st = at_ y st) : x = y := funext h

section
omit [Build]

@[simp] theorem at_pure (a : α) (st : List (Val X Y)) : at_ (pure a : RM σ X Y α) st = pure (.ok a, st) := rfl
@[simp] theorem at_throw (s : Stop X Y) (st : List (Val X Y)) :
    at_ (throw s : RM σ X Y α) st = pure (.error s, st) := rfl

/-- go on -/
def next_ (f : α → RM σ X Y β) (r : Except (Stop X Y) α × List (Val X Y)) :
    M σ (Except (Stop X Y) β × List (Val X Y)) :=
  match r with
  | (.ok a, st) => at_ (f a) st
  | (.error s, st) => pure (.error s, st)

@[simp] theorem next_ok (f : α → RM σ X Y β) (a : α) (st : List (Val X Y)) : next_ f (.ok a, st) = at_ (f a) st := rfl
@[simp] theorem next_error (f : α → RM σ X Y β) (s : Stop X Y) (st : List (Val X Y)) :
    next_ f (.error s, st) = pure (.error s, st) := rfl

theorem at_bind (x : RM σ X Y α) (f : α → RM σ X Y β) (st : List (Val X Y)) :
    at_ (x >>= f) st = at_ x st >>= next_ f := by
  funext w
  simp only [at_, bind, ExceptT.bind, ExceptT.mk, StateT.bind]
  cases x st w with
  | ok r => obtain ⟨⟨r, st⟩, w⟩ := r; cases r <;> rfl
  | _ => rfl

@[simp] theorem at_toR (x : M σ α) (st : List (Val X Y)) :
    at_ (toR x : RM σ X Y α) st = (do let a ← x; pure (.ok a, st)) := by
  funext w
  simp only [at_, toR, ExceptT.lift, StateT.lift, ExceptT.mk, Functor.map, StateT.map, bind, StateT.bind, pure,
    StateT.pure]
  cases x w <;> rfl

@[simp] theorem at_observe (x : RM σ X Y α) (st : List (Val X Y)) :
    at_ (observe x) st = (do let r ← at_ x st; pure (.ok r.1, r.2)) := rfl

@[simp] theorem at_ite (c : Prop) [Decidable c] (x y : RM σ X Y α) (st : List (Val X Y)) :
    at_ (if c then x else y) st = if c then at_ x st else at_ y st := by split <;> rfl

@[simp] theorem at_read (a : Nat) (p : List String) (st : List (Val X Y)) :
    at_ (read a p : RM σ X Y _) st = at_ (must (st[a]?.bind (·.at p))) st := rfl

@[simp] theorem at_write (a : Nat) (p : List String) (u : Val X Y) (st : List (Val X Y)) :
    at_ (write a p u : RM σ X Y _) st
      = at_ (must (st[a]?.bind (·.put u p))) st >>= next_ (fun v => ExceptT.lift (set (st.set a v))) := by
  show at_ (must _ >>= _) st = _
  rw [at_bind]

@[simp] theorem at_set (st st' : List (Val X Y)) :
    at_ (ExceptT.lift (set st') : RM σ X Y _) st = pure (.ok ⟨⟩, st') := rfl

@[simp] theorem alloc_nil (env : Env X Y) : (alloc [] env : RM σ X Y _) = pure env := rfl
@[simp] theorem alloc_false (x : String) (v : Val X Y) (bs : List (Bool × String × Val X Y)) (env : Env X Y) :
    (alloc ((false, x, v) :: bs) env : RM σ X Y _) = alloc bs ((x, .inl v) :: env) := rfl
@[simp] theorem at_alloc (x : String) (v : Val X Y) (bs : List (Bool × String × Val X Y)) (env : Env X Y)
    (st : List (Val X Y)) :
    at_ (alloc ((true, x, v) :: bs) env : RM σ X Y _) st
      = at_ (alloc bs ((x, .inr st.length) :: env)) (st ++ [v]) := rfl

theorem at_scope (bs : List (Bool × String × Val X Y)) (x : RM σ X Y α) (st : List (Val X Y))
    (h : bs.any (·.1) = true) :
    at_ (scope bs x) st = (do let r ← at_ x st; pure (r.1, r.2.take st.length)) := by
  rw [scope, if_pos h]
  rw [at_bind]
  show at_ (observe x >>= _) st = _
  rw [at_bind, at_observe, bind_assoc]
  refine congrArg (at_ x st >>= ·) (funext fun r => ?_)
  obtain ⟨r, st'⟩ := r
  cases r <;> rfl

theorem scope_none (bs : List (Bool × String × Val X Y)) (x : RM σ X Y α) (h : bs.any (·.1) = false) :
    scope bs x = x := by rw [scope, if_neg (by simp [h])]

/-- `return` ends here -/
def caught (r : Except (Stop X Y) (Val X Y) × List (Val X Y)) :
    M σ (Except (Stop X Y) (Val X Y) × List (Val X Y)) :=
  match r with
  | (.ok v, st) => pure (.ok v, st)
  | (.error (.ret v), st) => pure (.ok v, st)
  | (.error .brk, _) => M.ub

@[simp] theorem caught_ok (v : Val X Y) (st : List (Val X Y)) :
    (caught (.ok v, st) : M σ _) = pure (.ok v, st) := rfl
@[simp] theorem caught_ret (v : Val X Y) (st : List (Val X Y)) :
    (caught (.error (.ret v), st) : M σ _) = pure (.ok v, st) := rfl

theorem at_catchRet (x : RM σ X Y (Val X Y)) (st : List (Val X Y)) :
    at_ (catchRet x) st = at_ x st >>= caught := by
  rw [catchRet, at_bind, at_observe, bind_assoc]
  refine congrArg (at_ x st >>= ·) (funext fun r => ?_)
  obtain ⟨r, st'⟩ := r
  cases r with
  | ok v => rfl
  | error s => cases s <;> rfl

@[simp] theorem scope_nil (x : RM σ X Y α) : scope [] x = x := rfl

@[simp] theorem take_take1 (st r : List (Val X Y)) : (((st ++ r).take (st.length + 1)).take st.length) = st := by
  simp [List.take_take, Nat.min_eq_left]

@[simp] theorem cell0 (st : List (Val X Y)) (u : Val X Y) (r : List (Val X Y)) :
    (st ++ u :: r)[st.length]? = some u := by simp
@[simp] theorem cell1 (st : List (Val X Y)) (u v : Val X Y) (r : List (Val X Y)) :
    (st ++ u :: v :: r)[st.length + 1]? = some v := by simp
@[simp] theorem cell2 (st : List (Val X Y)) (t u v : Val X Y) (r : List (Val X Y)) :
    (st ++ t :: u :: v :: r)[st.length + 2]? = some v := by simp
@[simp] theorem cell3 (st : List (Val X Y)) (s t u v : Val X Y) (r : List (Val X Y)) :
    (st ++ s :: t :: u :: v :: r)[st.length + 3]? = some v := by simp
@[simp] theorem set0 (st : List (Val X Y)) (u u' : Val X Y) (r : List (Val X Y)) :
    (st ++ u :: r).set st.length u' = st ++ u' :: r := by simp
@[simp] theorem set1 (st : List (Val X Y)) (u v v' : Val X Y) (r : List (Val X Y)) :
    (st ++ u :: v :: r).set (st.length + 1) v' = st ++ u :: v' :: r := by simp
@[simp] theorem set2 (st : List (Val X Y)) (t u v v' : Val X Y) (r : List (Val X Y)) :
    (st ++ t :: u :: v :: r).set (st.length + 2) v' = st ++ t :: u :: v' :: r := by simp
@[simp] theorem set3 (st : List (Val X Y)) (s t u v v' : Val X Y) (r : List (Val X Y)) :
    (st ++ s :: t :: u :: v :: r).set (st.length + 3) v' = st ++ s :: t :: u :: v' :: r := by simp

@[simp] theorem val_at (v : Val X Y) : v.at [] = some v := rfl
@[simp] theorem val_put (v u : Val X Y) : v.put u [] = some u := rfl

end

/-- `f` behaves like the parser `p`. -/
def IsParser (f : Val X Y) (t : T → Val X Y) (e : E → Val X Y) (p : Parser σ X T E) : Prop :=
  ∀ i, apply W f [ofInput i] = toR (do let r ← p i; pure (ofResult t e r))


attribute [local simp] apply eval evals evalArms callStd callMethod_eq receiver matchPats matchPat scope find Val.field
  index constant binop stdByMut stdCall optV indexSlice ofMode ofOption

section
attribute [local simp] ofInput callFn

@[simp] theorem input_new (m : Mode) (b : List X) :
    callFn W Text.input_new [ofMode m, .slice b] = pure (ofInput ⟨m, b⟩) := by
  simp [Text.input_new]

@[simp] theorem parse_result_new (v : Val X Y) :
    callFn W Text.parse_result_new [v] = pure (.con "ParseResult" [v]) := by
  simp [Text.parse_result_new]

@[simp] theorem Input_new (b : List X) : callFn W Text.Input_new [.slice b] = pure (ofInput (Input.new b)) := by
  simp [Text.Input_new, Input.new]

@[simp] theorem Input_ret (i : Input X) (v : Val X Y) :
    callFn W Text.Input_ret [ofInput i, v] = pure (.con "ParseResult" [.con "State::Data" [ofInput i, v]]) := by
  simp [Text.Input_ret, Text.parse_result_new]

@[simp] theorem Input_err (i : Input X) (v : Val X Y) :
    callFn W Text.Input_err [ofInput i, v] = pure (.con "ParseResult" [.con "State::Error" [.slice i.buf, v]]) := by
  simp [Text.Input_err, Text.parse_result_new]

@[simp] theorem Input_incomplete (i : Input X) (n : Nat) :
    callFn W Text.Input_incomplete [ofInput i, .nat n]
      = pure (.con "ParseResult" [.con "State::Incomplete" [.nat n]]) := by
  simp [Text.Input_incomplete, Text.parse_result_new]

theorem Input_from_result (t : T → Val X Y) (e : E → Val X Y) (i : Input X) (r : Except E T) :
    callFn W Text.Input_from_result [ofInput i, ofExcept t e r] = pure (ofResult t e (i.fromResult r)) := by
  cases r <;> simp [Text.Input_from_result, Text.parse_result_new, ofExcept, ofResult, Input.fromResult]

@[simp] theorem Input_clone (i : Input X) : callFn W Text.Input_clone [ofInput i] = pure (ofInput i) := by
  simp [Text.Input_clone]

@[simp] theorem Input_buffer (i : Input X) : callFn W Text.Input_buffer [ofInput i] = pure (.slice i.buf) := by
  simp [Text.Input_buffer]

@[simp] theorem Input_replace (i : Input X) (b : List X) :
    callFn W Text.Input_replace [ofInput i, .slice b] = pure (ofInput (i.replace b)) := by
  simp [Text.Input_replace, Input.replace]

@[simp] theorem Input_is_last_slice (i : Input X) :
    callFn W Text.Input_is_last_slice [ofInput i] = pure (.bool i.isLastSlice) := by
  obtain ⟨m, b⟩ := i
  cases m <;> simp [Text.Input_is_last_slice, Input.isLastSlice]

end

/-! ### Errors -/

@[simp] theorem unexpected : callFn W (if W.verbose then Text.err_unexpected_verbose else Text.err_unexpected_terse) []
    = pure (ofError (Err.unexpected W.verbose)) := by
  cases W.verbose <;>
    simp [callFn, Text.err_unexpected_verbose, Text.err_unexpected_terse, Err.unexpected, ofError]

@[simp] theorem expected (x : X) :
    callFn W (if W.verbose then Text.err_expected_verbose else Text.err_expected_terse) [.item x]
    = pure (ofError (Err.expected W.verbose x)) := by
  cases W.verbose <;>
    simp [callFn, Text.err_expected_verbose, Text.err_expected_terse, Err.expected, ofError]

end Chomp.Rust
