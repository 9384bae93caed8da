import Verif.Rust.Many

/-
The texts of the `many_till` functions of /repo/src/combinators/bounded.rs do what their models say.
-/

set_option linter.unusedSimpArgs false

namespace Chomp.Rust

variable {σ X Y τ U E V N D : Type}

variable [Build] (W : World σ X Y)

attribute [local simp] apply eval evals callStd callMethod_eq receiver matchPats matchPat find Val.field
  index constant binop stdByMut stdCall optV indexSlice ofMode ofOption place

attribute [local simp] getField setField Val.set Val.at Val.put

attribute [-simp] bind_pure_comp

/-- `EndStateTill`, src/combinators/macros.rs:162-167. -/
def ofEndStateTill (e : E → Val X Y) (s : Bounded.EndStateTill X E) : Val X Y :=
  match s with
  | .error b a => .con "EndStateTill::Error" [.slice b, e a]
  | .incomplete n => .con "EndStateTill::Incomplete" [.nat n]
  | .endSuccess => .con "EndStateTill::EndSuccess" []

/-- `IterTill`, src/combinators/macros.rs:170-184, of the expansion with name `c`. -/
def ofIterTill (c : String) (f g : Val X Y) (e : E → Val X Y) (d : D → Val X Y) (it : Bounded.IterTill X E D) : Val X Y :=
  .strct c [("state", ofEndStateTill e it.state), ("parser", f), ("end", g), ("buf", ofInput it.buf), ("data", d it.data),
    ("_t", .con "PhantomData" [])]

variable (C : Cells σ X Y τ) (u : U → Val X Y) (e : E → Val X Y) (v : V → Val X Y) (e' : N → Val X Y) (f g : Val X Y)
  (p : Parser τ X U E) (q : Parser τ X V N)

set_option maxHeartbeats 1000000 in
theorem Range_till_next (h : IsParserIn C W f u e p) (h' : IsParserIn C W g v e' q) (it : Bounded.IterTill X E (Nat × Nat)) (b : Bool)
    (w : τ) :
    Same C (fun a r w' => a = (.ok (ofOption u r.1), C.cells w' ++ [ofIterTill "IterTill of Range::many_till" f g e ofPair r.2, .bool b]))
      (at_ (callFn W Text.Range_many_till_next [.loc (C.cells w).length []])
        (C.cells w ++ [ofIterTill "IterTill of Range::many_till" f g e ofPair it, .bool b])) w
      (Bounded.iterTillNext (Bounded.hooksTillRange q) p it) := by
  rw [callFn, Bounded.iterTillNext]
  obtain ⟨s, i, n, m⟩ := it
  by_cases hn : n = 0
  · by_cases hm : m = 0
    · simp [Text.Range_many_till_next, scope_none, at_scope, at_bind, at_catchRet, ofIterTill, Bounded.hooksTillRange, Bounded.endTest, ofEndStateTill, ofPair, hn, hm]
      refine Same.bind (h' i w _) fun a r w' hr => ?_
      subst hr
      rw [C.len w w']
      cases r with
      | data b v =>
        simp [ofResult, evalArms, scope_none, at_bind, at_catchRet, ofPair, hn, hm]
        exact Same.pure rfl
      | error b a =>
        simp [ofResult, evalArms, scope_none, at_bind, at_catchRet, ofPair, hn, hm]
        refine Same.bind (h' i w' _) fun a r w'' hr => ?_
        subst hr
        rw [C.len w' w'']
        cases r with
        | data b v =>
          simp [ofResult, evalArms, scope_none, at_bind, at_catchRet, ofPair, hn, hm]
          exact Same.pure rfl
        | error b a =>
          simp [ofResult, evalArms, scope_none, at_bind, at_catchRet, ofPair, hn, hm]
          exact Same.pure rfl
        | incomplete k =>
          simp [ofResult, evalArms, scope_none, at_bind, at_catchRet, ofPair, hn, hm]
          exact Same.pure rfl
      | incomplete k =>
        simp [ofResult, evalArms, scope_none, at_bind, at_catchRet, ofPair, hn, hm]
        refine Same.bind (h' i w' _) fun a r w'' hr => ?_
        subst hr
        rw [C.len w' w'']
        cases r with
        | data b v =>
          simp [ofResult, evalArms, scope_none, at_bind, at_catchRet, ofPair, hn, hm]
          exact Same.pure rfl
        | error b a =>
          simp [ofResult, evalArms, scope_none, at_bind, at_catchRet, ofPair, hn, hm]
          exact Same.pure rfl
        | incomplete k =>
          simp [ofResult, evalArms, scope_none, at_bind, at_catchRet, ofPair, hn, hm]
          exact Same.pure rfl
    · simp [Text.Range_many_till_next, scope_none, at_scope, at_bind, at_catchRet, ofIterTill, Bounded.hooksTillRange, Bounded.endTest, ofEndStateTill, ofPair, hn, hm]
      refine Same.bind (h' i w _) fun a r w' hr => ?_
      subst hr
      rw [C.len w w']
      cases r with
      | data b v =>
        simp [ofResult, evalArms, scope_none, at_bind, at_catchRet, ofPair, hn, hm]
        exact Same.pure rfl
      | error b a =>
        simp [ofResult, evalArms, scope_none, at_bind, at_catchRet, ofPair, hn, hm]
        refine Same.bind (h i w' _) fun a r w'' hr => ?_
        subst hr
        rw [C.len w' w'']
        cases r with
        | data b v =>
          simp [ofResult, evalArms, scope_none, at_bind, at_catchRet, Bounded.decSat, Bounded.dec, hn, ofPair]
          refine Same.lift _ fun m => ?_
          exact Same.pure rfl
        | error b a =>
          simp [ofResult, evalArms, scope_none, at_bind, at_catchRet, ofPair, hn, hm]
          exact Same.pure rfl
        | incomplete k =>
          simp [ofResult, evalArms, scope_none, at_bind, at_catchRet, ofPair, hn, hm]
          exact Same.pure rfl
      | incomplete k =>
        simp [ofResult, evalArms, scope_none, at_bind, at_catchRet, ofPair, hn, hm]
        refine Same.bind (h i w' _) fun a r w'' hr => ?_
        subst hr
        rw [C.len w' w'']
        cases r with
        | data b v =>
          simp [ofResult, evalArms, scope_none, at_bind, at_catchRet, Bounded.decSat, Bounded.dec, hn, ofPair]
          refine Same.lift _ fun m => ?_
          exact Same.pure rfl
        | error b a =>
          simp [ofResult, evalArms, scope_none, at_bind, at_catchRet, ofPair, hn, hm]
          exact Same.pure rfl
        | incomplete k =>
          simp [ofResult, evalArms, scope_none, at_bind, at_catchRet, ofPair, hn, hm]
          exact Same.pure rfl
  · by_cases hm : m = 0
    · simp [Text.Range_many_till_next, scope_none, at_scope, at_bind, at_catchRet, ofIterTill, Bounded.hooksTillRange, Bounded.endTest, ofEndStateTill, ofPair, hn, hm]
      refine Same.bind (h' i w _) fun a r w' hr => ?_
      subst hr
      rw [C.len w w']
      cases r with
      | data b v =>
        simp [ofResult, evalArms, scope_none, at_bind, at_catchRet, ofPair, hn, hm]
        exact Same.pure rfl
      | error b a =>
        simp [ofResult, evalArms, scope_none, at_bind, at_catchRet, ofPair, hn, hm]
        exact Same.pure rfl
      | incomplete k =>
        simp [ofResult, evalArms, scope_none, at_bind, at_catchRet, ofPair, hn, hm]
        exact Same.pure rfl
    · simp [Text.Range_many_till_next, scope_none, at_scope, at_bind, at_catchRet, ofIterTill, Bounded.hooksTillRange, Bounded.endTest, ofEndStateTill, ofPair, hn, hm]
      refine Same.bind (h i w _) fun a r w' hr => ?_
      subst hr
      rw [C.len w w']
      cases r with
      | data b v =>
        simp [ofResult, evalArms, scope_none, at_bind, at_catchRet, Bounded.decSat, Bounded.dec, hn, ofPair]
        refine Same.lift _ fun m => ?_
        refine Same.lift _ fun m => ?_
        exact Same.pure rfl
      | error b a =>
        simp [ofResult, evalArms, scope_none, at_bind, at_catchRet, ofPair, hn, hm]
        exact Same.pure rfl
      | incomplete k =>
        simp [ofResult, evalArms, scope_none, at_bind, at_catchRet, ofPair, hn, hm]
        exact Same.pure rfl

theorem Range_till_hint (it : Bounded.IterTill X E (Nat × Nat)) :
    callFn W Text.Range_many_till_size_hint [ofIterTill "IterTill of Range::many_till" f g e ofPair it]
      = pure (.tuple [.nat it.data.1, ofOption .nat (some it.data.2)]) := by
  rw [callFn]
  simp [Text.Range_many_till_size_hint, scope_none, ofIterTill, ofPair]

section
attribute [local congr] bind_left bind_left'

theorem Range_many_till_panics (i : Input X) (a b : Nat) (hab : ¬ a ≤ b) (st : List (Val X Y)) :
    at_ (callFn W Text.Range_many_till [.con "Range" [.nat a, .nat b], ofInput i, f, g]) st = M.panic := by
  rw [callFn, Text.Range_many_till]
  simp [scope_none, at_scope, at_bind, at_catchRet, hab, panic_bind]

end

theorem Range_many_till {T : Type} {t : T → Val X Y} {c : Machine τ U T} (hc : CollectsIn C W.collect c u t)
    (h : IsParserIn C W f u e p) (h' : IsParserIn C W g v e' q) (i : Input X) (a b : Nat) (w : τ) :
    Same C (fun a r w' => a = (.ok (ofResult t e r), C.cells w'))
      (at_ (callFn W Text.Range_many_till [.con "Range" [.nat a, .nat b], ofInput i, f, g]) (C.cells w)) w
      (Bounded.manyTillWith (.range a b) c.driver p q i) := by
  by_cases hab : a ≤ b
  · rw [callFn, Bounded.manyTillWith, Bounded.manyTillRange, if_pos hab]
    simp [Text.Range_many_till, scope_none, at_scope, at_bind, at_catchRet, usub_maxOf, hab]
    refine Same.bind (from_iter W C u hc (ofIterTill "IterTill of Range::many_till" f g e ofPair) "IterTill of Range::many_till" _ _
      (fun _ => rfl) (Text.find_Range_many_till_next _) (Text.find_Range_many_till_size_hint _)
      (Bounded.iterTillNext (Bounded.hooksTillRange q) p) _ (Range_till_next W C u e v e' f g p q h h') (Range_till_hint W e f g) w _
      (by simp) ⟨.incomplete 1, i, a, Bounded.maxOf b⟩ false) fun a r w' hr => ?_
    obtain ⟨flag, rfl⟩ := hr
    rw [C.len w w']
    obtain ⟨result, st, s, n, m⟩ := r
    simp [at_bind, ofIterTill, ofPair]
    rw [callFn]
    simp [Text.Range_many_till_end_state, scope_none, at_bind]
    rcases n with _ | n <;> rcases m with _ | m <;> cases st <;>
      simp [evalArms, scope_none, at_bind, ofEndStateTill, panic_bind] <;> first | exact Same.pure rfl | exact Same.panic
  · rw [Range_many_till_panics W f g i a b hab, Bounded.manyTillWith, Bounded.manyTillRange, if_neg hab]
    exact Same.panic

theorem RangeFrom_till_next (h : IsParserIn C W f u e p) (h' : IsParserIn C W g v e' q) (it : Bounded.IterTill X E Nat) (b : Bool)
    (w : τ) :
    Same C (fun a r w' => a = (.ok (ofOption u r.1), C.cells w' ++ [ofIterTill "IterTill of RangeFrom::many_till" f g e .nat r.2, .bool b]))
      (at_ (callFn W Text.RangeFrom_many_till_next [.loc (C.cells w).length []])
        (C.cells w ++ [ofIterTill "IterTill of RangeFrom::many_till" f g e .nat it, .bool b])) w
      (Bounded.iterTillNext (Bounded.hooksTillFrom q) p it) := by
  rw [callFn, Bounded.iterTillNext]
  obtain ⟨s, i, n⟩ := it
  by_cases hn : n = 0
  · simp [Text.RangeFrom_many_till_next, scope_none, at_scope, at_bind, at_catchRet, ofIterTill, Bounded.hooksTillFrom, Bounded.endTest, ofEndStateTill, hn]
    refine Same.bind (h' i w _) fun a r w' hr => ?_
    subst hr
    rw [C.len w w']
    cases r with
    | data b v =>
      simp [ofResult, evalArms, scope_none, at_bind, at_catchRet, hn]
      exact Same.pure rfl
    | error b a =>
      simp [ofResult, evalArms, scope_none, at_bind, at_catchRet, hn]
      refine Same.bind (h i w' _) fun a r w'' hr => ?_
      subst hr
      rw [C.len w' w'']
      cases r with
      | data b v =>
        simp [ofResult, evalArms, scope_none, at_bind, at_catchRet, Bounded.decSat, hn]
        exact Same.pure rfl
      | error b a =>
        simp [ofResult, evalArms, scope_none, at_bind, at_catchRet]
        exact Same.pure rfl
      | incomplete k =>
        simp [ofResult, evalArms, scope_none, at_bind, at_catchRet]
        exact Same.pure rfl
    | incomplete k =>
      simp [ofResult, evalArms, scope_none, at_bind, at_catchRet, hn]
      refine Same.bind (h i w' _) fun a r w'' hr => ?_
      subst hr
      rw [C.len w' w'']
      cases r with
      | data b v =>
        simp [ofResult, evalArms, scope_none, at_bind, at_catchRet, Bounded.decSat, hn]
        exact Same.pure rfl
      | error b a =>
        simp [ofResult, evalArms, scope_none, at_bind, at_catchRet]
        exact Same.pure rfl
      | incomplete k =>
        simp [ofResult, evalArms, scope_none, at_bind, at_catchRet]
        exact Same.pure rfl
  · simp [Text.RangeFrom_many_till_next, scope_none, at_scope, at_bind, at_catchRet, ofIterTill, Bounded.hooksTillFrom, Bounded.endTest, ofEndStateTill, hn]
    refine Same.bind (h i w _) fun a r w' hr => ?_
    subst hr
    rw [C.len w w']
    cases r with
    | data b v =>
      simp [ofResult, evalArms, scope_none, at_bind, at_catchRet, Bounded.decSat, hn]
      refine Same.lift _ fun m => ?_
      exact Same.pure rfl
    | error b a =>
      simp [ofResult, evalArms, scope_none, at_bind, at_catchRet]
      exact Same.pure rfl
    | incomplete k =>
      simp [ofResult, evalArms, scope_none, at_bind, at_catchRet]
      exact Same.pure rfl

theorem RangeFrom_till_hint (it : Bounded.IterTill X E Nat) :
    callFn W Text.RangeFrom_many_till_size_hint [ofIterTill "IterTill of RangeFrom::many_till" f g e .nat it]
      = pure (.tuple [.nat it.data, ofOption .nat none]) := by
  rw [callFn]
  simp [Text.RangeFrom_many_till_size_hint, scope_none, ofIterTill]

theorem RangeFrom_many_till {T : Type} {t : T → Val X Y} {c : Machine τ U T} (hc : CollectsIn C W.collect c u t)
    (h : IsParserIn C W f u e p) (h' : IsParserIn C W g v e' q) (i : Input X) (a : Nat) (w : τ) :
    Same C (fun a r w' => a = (.ok (ofResult t e r), C.cells w'))
      (at_ (callFn W Text.RangeFrom_many_till [.con "RangeFrom" [.nat a], ofInput i, f, g]) (C.cells w)) w
      (Bounded.manyTillWith (.from_ a) c.driver p q i) := by
  rw [callFn, Bounded.manyTillWith, Bounded.manyTillFrom]
  simp [Text.RangeFrom_many_till, scope_none, at_scope, at_bind, at_catchRet, usub_maxOf]
  refine Same.bind (from_iter W C u hc (ofIterTill "IterTill of RangeFrom::many_till" f g e .nat) "IterTill of RangeFrom::many_till" _ _
    (fun _ => rfl) (Text.find_RangeFrom_many_till_next _) (Text.find_RangeFrom_many_till_size_hint _)
    (Bounded.iterTillNext (Bounded.hooksTillFrom q) p) _ (RangeFrom_till_next W C u e v e' f g p q h h') (RangeFrom_till_hint W e f g) w _
    (by simp) ⟨.incomplete 1, i, a⟩ false) fun a r w' hr => ?_
  obtain ⟨flag, rfl⟩ := hr
  rw [C.len w w']
  obtain ⟨result, st, s, n⟩ := r
  simp [at_bind, ofIterTill]
  rw [callFn]
  simp [Text.RangeFrom_many_till_end_state, scope_none, at_bind]
  rcases n with _ | n <;> cases st <;>
    simp [evalArms, scope_none, at_bind, ofEndStateTill, panic_bind] <;> first | exact Same.pure rfl | exact Same.panic

theorem RangeFull_till_next (h : IsParserIn C W f u e p) (h' : IsParserIn C W g v e' q) (it : Bounded.IterTill X E Unit) (b : Bool)
    (w : τ) :
    Same C (fun a r w' => a = (.ok (ofOption u r.1), C.cells w' ++ [ofIterTill "IterTill of RangeFull::many_till" f g e ofUnit r.2, .bool b]))
      (at_ (callFn W Text.RangeFull_many_till_next [.loc (C.cells w).length []])
        (C.cells w ++ [ofIterTill "IterTill of RangeFull::many_till" f g e ofUnit it, .bool b])) w
      (Bounded.iterTillNext (Bounded.hooksTillFull q) p it) := by
  rw [callFn, Bounded.iterTillNext]
  obtain ⟨s, i, n⟩ := it
  simp [Text.RangeFull_many_till_next, scope_none, at_scope, at_bind, at_catchRet, ofIterTill, Bounded.hooksTillFull, Bounded.endTest, ofEndStateTill, ofUnit]
  refine Same.bind (h' i w _) fun a r w' hr => ?_
  subst hr
  rw [C.len w w']
  cases r with
  | data b v =>
    simp [ofResult, evalArms, scope_none, at_bind, at_catchRet, ofUnit]
    exact Same.pure rfl
  | error b a =>
    simp [ofResult, evalArms, scope_none, at_bind, at_catchRet, ofUnit]
    refine Same.bind (h i w' _) fun a r w'' hr => ?_
    subst hr
    rw [C.len w' w'']
    cases r with
    | data b v =>
      simp [ofResult, evalArms, scope_none, at_bind, at_catchRet, ofUnit]
      exact Same.pure rfl
    | error b a =>
      simp [ofResult, evalArms, scope_none, at_bind, at_catchRet, ofUnit]
      exact Same.pure rfl
    | incomplete k =>
      simp [ofResult, evalArms, scope_none, at_bind, at_catchRet, ofUnit]
      exact Same.pure rfl
  | incomplete k =>
    simp [ofResult, evalArms, scope_none, at_bind, at_catchRet, ofUnit]
    refine Same.bind (h i w' _) fun a r w'' hr => ?_
    subst hr
    rw [C.len w' w'']
    cases r with
    | data b v =>
      simp [ofResult, evalArms, scope_none, at_bind, at_catchRet, ofUnit]
      exact Same.pure rfl
    | error b a =>
      simp [ofResult, evalArms, scope_none, at_bind, at_catchRet, ofUnit]
      exact Same.pure rfl
    | incomplete k =>
      simp [ofResult, evalArms, scope_none, at_bind, at_catchRet, ofUnit]
      exact Same.pure rfl

theorem RangeFull_till_hint (it : Bounded.IterTill X E Unit) :
    callFn W Text.RangeFull_many_till_size_hint [ofIterTill "IterTill of RangeFull::many_till" f g e ofUnit it]
      = pure (.tuple [.nat 0, ofOption .nat none]) := by
  rw [callFn]
  simp [Text.RangeFull_many_till_size_hint, scope_none, ofIterTill, ofUnit]

theorem RangeFull_many_till {T : Type} {t : T → Val X Y} {c : Machine τ U T} (hc : CollectsIn C W.collect c u t)
    (h : IsParserIn C W f u e p) (h' : IsParserIn C W g v e' q) (i : Input X) (w : τ) :
    Same C (fun a r w' => a = (.ok (ofResult t e r), C.cells w'))
      (at_ (callFn W Text.RangeFull_many_till [.con "RangeFull" [], ofInput i, f, g]) (C.cells w)) w
      (Bounded.manyTillWith .full c.driver p q i) := by
  rw [callFn, Bounded.manyTillWith, Bounded.manyTillFull]
  simp [Text.RangeFull_many_till, scope_none, at_scope, at_bind, at_catchRet, usub_maxOf]
  refine Same.bind (from_iter W C u hc (ofIterTill "IterTill of RangeFull::many_till" f g e ofUnit) "IterTill of RangeFull::many_till" _ _
    (fun _ => rfl) (Text.find_RangeFull_many_till_next _) (Text.find_RangeFull_many_till_size_hint _)
    (Bounded.iterTillNext (Bounded.hooksTillFull q) p) _ (RangeFull_till_next W C u e v e' f g p q h h') (RangeFull_till_hint W e f g) w _
    (by simp) ⟨.incomplete 1, i, ()⟩ false) fun a r w' hr => ?_
  obtain ⟨flag, rfl⟩ := hr
  rw [C.len w w']
  obtain ⟨result, st, s, n⟩ := r
  simp [at_bind, ofIterTill, ofUnit]
  rw [callFn]
  simp [Text.RangeFull_many_till_end_state, scope_none, at_bind]
  cases st <;>
    simp [evalArms, scope_none, at_bind, ofEndStateTill, panic_bind] <;> first | exact Same.pure rfl | exact Same.panic

theorem RangeTo_till_next (h : IsParserIn C W f u e p) (h' : IsParserIn C W g v e' q) (it : Bounded.IterTill X E Nat) (b : Bool)
    (w : τ) :
    Same C (fun a r w' => a = (.ok (ofOption u r.1), C.cells w' ++ [ofIterTill "IterTill of RangeTo::many_till" f g e .nat r.2, .bool b]))
      (at_ (callFn W Text.RangeTo_many_till_next [.loc (C.cells w).length []])
        (C.cells w ++ [ofIterTill "IterTill of RangeTo::many_till" f g e .nat it, .bool b])) w
      (Bounded.iterTillNext (Bounded.hooksTillTo q) p it) := by
  rw [callFn, Bounded.iterTillNext]
  obtain ⟨s, i, n⟩ := it
  by_cases hn : n = 0
  · simp [Text.RangeTo_many_till_next, scope_none, at_scope, at_bind, at_catchRet, ofIterTill, Bounded.hooksTillTo, Bounded.endTest, ofEndStateTill, hn]
    refine Same.bind (h' i w _) fun a r w' hr => ?_
    subst hr
    rw [C.len w w']
    cases r with
    | data b v =>
      simp [ofResult, evalArms, scope_none, at_bind, at_catchRet, hn]
      exact Same.pure rfl
    | error b a =>
      simp [ofResult, evalArms, scope_none, at_bind, at_catchRet, hn]
      exact Same.pure rfl
    | incomplete k =>
      simp [ofResult, evalArms, scope_none, at_bind, at_catchRet, hn]
      exact Same.pure rfl
  · simp [Text.RangeTo_many_till_next, scope_none, at_scope, at_bind, at_catchRet, ofIterTill, Bounded.hooksTillTo, Bounded.endTest, ofEndStateTill, hn]
    refine Same.bind (h' i w _) fun a r w' hr => ?_
    subst hr
    rw [C.len w w']
    cases r with
    | data b v =>
      simp [ofResult, evalArms, scope_none, at_bind, at_catchRet, hn]
      exact Same.pure rfl
    | error b a =>
      simp [ofResult, evalArms, scope_none, at_bind, at_catchRet, hn]
      refine Same.bind (h i w' _) fun a r w'' hr => ?_
      subst hr
      rw [C.len w' w'']
      cases r with
      | data b v =>
        simp [ofResult, evalArms, scope_none, at_bind, at_catchRet, Bounded.dec]
        refine Same.lift _ fun m => ?_
        exact Same.pure rfl
      | error b a =>
        simp [ofResult, evalArms, scope_none, at_bind, at_catchRet]
        exact Same.pure rfl
      | incomplete k =>
        simp [ofResult, evalArms, scope_none, at_bind, at_catchRet]
        exact Same.pure rfl
    | incomplete k =>
      simp [ofResult, evalArms, scope_none, at_bind, at_catchRet, hn]
      refine Same.bind (h i w' _) fun a r w'' hr => ?_
      subst hr
      rw [C.len w' w'']
      cases r with
      | data b v =>
        simp [ofResult, evalArms, scope_none, at_bind, at_catchRet, Bounded.dec]
        refine Same.lift _ fun m => ?_
        exact Same.pure rfl
      | error b a =>
        simp [ofResult, evalArms, scope_none, at_bind, at_catchRet]
        exact Same.pure rfl
      | incomplete k =>
        simp [ofResult, evalArms, scope_none, at_bind, at_catchRet]
        exact Same.pure rfl

theorem RangeTo_till_hint (it : Bounded.IterTill X E Nat) :
    callFn W Text.RangeTo_many_till_size_hint [ofIterTill "IterTill of RangeTo::many_till" f g e .nat it]
      = pure (.tuple [.nat 0, ofOption .nat (some it.data)]) := by
  rw [callFn]
  simp [Text.RangeTo_many_till_size_hint, scope_none, ofIterTill]

theorem RangeTo_many_till {T : Type} {t : T → Val X Y} {c : Machine τ U T} (hc : CollectsIn C W.collect c u t)
    (h : IsParserIn C W f u e p) (h' : IsParserIn C W g v e' q) (i : Input X) (b : Nat) (w : τ) :
    Same C (fun a r w' => a = (.ok (ofResult t e r), C.cells w'))
      (at_ (callFn W Text.RangeTo_many_till [.con "RangeTo" [.nat b], ofInput i, f, g]) (C.cells w)) w
      (Bounded.manyTillWith (.to b) c.driver p q i) := by
  rw [callFn, Bounded.manyTillWith, Bounded.manyTillTo]
  simp [Text.RangeTo_many_till, scope_none, at_scope, at_bind, at_catchRet, usub_maxOf]
  refine Same.bind (from_iter W C u hc (ofIterTill "IterTill of RangeTo::many_till" f g e .nat) "IterTill of RangeTo::many_till" _ _
    (fun _ => rfl) (Text.find_RangeTo_many_till_next _) (Text.find_RangeTo_many_till_size_hint _)
    (Bounded.iterTillNext (Bounded.hooksTillTo q) p) _ (RangeTo_till_next W C u e v e' f g p q h h') (RangeTo_till_hint W e f g) w _
    (by simp) ⟨.incomplete 1, i, Bounded.maxOf b⟩ false) fun a r w' hr => ?_
  obtain ⟨flag, rfl⟩ := hr
  rw [C.len w w']
  obtain ⟨result, st, s, n⟩ := r
  simp [at_bind, ofIterTill]
  rw [callFn]
  simp [Text.RangeTo_many_till_end_state, scope_none, at_bind]
  rcases n with _ | n <;> cases st <;>
    simp [evalArms, scope_none, at_bind, ofEndStateTill, panic_bind] <;> first | exact Same.pure rfl | exact Same.panic

theorem usize_till_next (h : IsParserIn C W f u e p) (h' : IsParserIn C W g v e' q) (it : Bounded.IterTill X E Nat) (b : Bool)
    (w : τ) :
    Same C (fun a r w' => a = (.ok (ofOption u r.1), C.cells w' ++ [ofIterTill "IterTill of usize::many_till" f g e .nat r.2, .bool b]))
      (at_ (callFn W Text.usize_many_till_next [.loc (C.cells w).length []])
        (C.cells w ++ [ofIterTill "IterTill of usize::many_till" f g e .nat it, .bool b])) w
      (Bounded.iterTillNext (Bounded.hooksTillExactly q) p it) := by
  rw [callFn, Bounded.iterTillNext]
  obtain ⟨s, i, n⟩ := it
  by_cases hn : n = 0
  · simp [Text.usize_many_till_next, scope_none, at_scope, at_bind, at_catchRet, ofIterTill, Bounded.hooksTillExactly, Bounded.endTest, ofEndStateTill, hn]
    refine Same.bind (h' i w _) fun a r w' hr => ?_
    subst hr
    rw [C.len w w']
    cases r with
    | data b v =>
      simp [ofResult, evalArms, scope_none, at_bind, at_catchRet, hn]
      exact Same.pure rfl
    | error b a =>
      simp [ofResult, evalArms, scope_none, at_bind, at_catchRet, hn]
      exact Same.pure rfl
    | incomplete k =>
      simp [ofResult, evalArms, scope_none, at_bind, at_catchRet, hn]
      exact Same.pure rfl
  · simp [Text.usize_many_till_next, scope_none, at_scope, at_bind, at_catchRet, ofIterTill, Bounded.hooksTillExactly, Bounded.endTest, ofEndStateTill, hn]
    refine Same.bind (h i w _) fun a r w' hr => ?_
    subst hr
    rw [C.len w w']
    cases r with
    | data b v =>
      simp [ofResult, evalArms, scope_none, at_bind, at_catchRet, Bounded.dec]
      refine Same.lift _ fun m => ?_
      exact Same.pure rfl
    | error b a =>
      simp [ofResult, evalArms, scope_none, at_bind, at_catchRet]
      exact Same.pure rfl
    | incomplete k =>
      simp [ofResult, evalArms, scope_none, at_bind, at_catchRet]
      exact Same.pure rfl

theorem usize_till_hint (it : Bounded.IterTill X E Nat) :
    callFn W Text.usize_many_till_size_hint [ofIterTill "IterTill of usize::many_till" f g e .nat it]
      = pure (.tuple [.nat it.data, ofOption .nat (some it.data)]) := by
  rw [callFn]
  simp [Text.usize_many_till_size_hint, scope_none, ofIterTill]

theorem usize_many_till {T : Type} {t : T → Val X Y} {c : Machine τ U T} (hc : CollectsIn C W.collect c u t)
    (h : IsParserIn C W f u e p) (h' : IsParserIn C W g v e' q) (i : Input X) (k : Nat) (w : τ) :
    Same C (fun a r w' => a = (.ok (ofResult t e r), C.cells w'))
      (at_ (callFn W Text.usize_many_till [.nat k, ofInput i, f, g]) (C.cells w)) w
      (Bounded.manyTillWith (.exactly k) c.driver p q i) := by
  rw [callFn, Bounded.manyTillWith, Bounded.manyTillExactly]
  simp [Text.usize_many_till, scope_none, at_scope, at_bind, at_catchRet, usub_maxOf]
  refine Same.bind (from_iter W C u hc (ofIterTill "IterTill of usize::many_till" f g e .nat) "IterTill of usize::many_till" _ _
    (fun _ => rfl) (Text.find_usize_many_till_next _) (Text.find_usize_many_till_size_hint _)
    (Bounded.iterTillNext (Bounded.hooksTillExactly q) p) _ (usize_till_next W C u e v e' f g p q h h') (usize_till_hint W e f g) w _
    (by simp) ⟨.incomplete 1, i, k⟩ false) fun a r w' hr => ?_
  obtain ⟨flag, rfl⟩ := hr
  rw [C.len w w']
  obtain ⟨result, st, s, n⟩ := r
  simp [at_bind, ofIterTill]
  rw [callFn]
  simp [Text.usize_many_till_end_state, scope_none, at_bind]
  rcases n with _ | n <;> cases st <;>
    simp [evalArms, scope_none, at_bind, ofEndStateTill, panic_bind] <;> first | exact Same.pure rfl | exact Same.panic

end Chomp.Rust
