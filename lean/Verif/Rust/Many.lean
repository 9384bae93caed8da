import Verif.Rust.Cells
import Verif.Rust.Ascii
import Verif.Rust.Skip

/-
The texts of the `parse_many` functions of /repo/src/combinators/bounded.rs do what their models say.
-/

set_option linter.unusedSimpArgs false

namespace Chomp.Rust

variable {σ X Y τ U E D : Type}

variable [Build] (W : World σ X Y)

attribute [local simp] apply eval evals callStd callMethod_eq receiver matchPats matchPat find Val.field
  index constant binop stdByMut stdCall optV indexSlice ofMode ofOption place

attribute [local simp] getField setField Val.set Val.at Val.put

omit [Build] in
@[simp] theorem deref_loc (a : Nat) (p : List String) : (deref (.loc a p) : RM σ X Y _) = read a p := rfl

attribute [-simp] bind_pure_comp

/-- `EndState`, src/combinators/macros.rs:56-60. -/
def ofEndState (e : E → Val X Y) (s : Bounded.EndState X E) : Val X Y :=
  match s with
  | .error b a => .con "EndState::Error" [.slice b, e a]
  | .incomplete n => .con "EndState::Incomplete" [.nat n]

/-- `Iter`, src/combinators/macros.rs:62-76, of the expansion with name `c`. -/
def ofIter (c : String) (f : Val X Y) (e : E → Val X Y) (d : D → Val X Y) (it : Bounded.Iter X E D) : Val X Y :=
  .strct c [("state", ofEndState e it.state), ("parser", f), ("buf", ofInput it.buf), ("data", d it.data),
    ("_t", .con "PhantomData" [])]

/-- two counters -/
def ofPair (d : Nat × Nat) : Val X Y := .tuple [.nat d.1, .nat d.2]

variable (C : Cells σ X Y τ) (u : U → Val X Y) (e : E → Val X Y) (f : Val X Y) (p : Parser τ X U E)

/-- `iter.by_ref().inspect(|_| item = true)` -/
def inspected (a : Nat) (g : Env X Y) : Val X Y :=
  .con "Inspect" [.loc a [], .clo [.wild] (.assign (.path "item") (.bool true)) g]

theorem nextOf_inspected {It : Type} (cell : It → Val X Y) (name : String) (fn : Fn)
    (hname : ∀ it, typeOf (cell it) = name) (hfn : Text.find W.verbose name "next" = some fn)
    (next : It → M τ (Option U × It))
    (hnext : ∀ it b w, Same C (fun a r w' => a = (.ok (ofOption u r.1), C.cells w' ++ [cell r.2, .bool b]))
      (at_ (callFn W fn [.loc (C.cells w).length []]) (C.cells w ++ [cell it, .bool b])) w (next it))
    (w0 : τ) (g : Env X Y) (hg : find g "item" = some (.inr ((C.cells w0).length + 1))) (it : It) (b : Bool) (w : τ) :
    Same C (fun a r w' => ∃ b', a = (.ok (r.1.map u), C.cells w' ++ [cell r.2, .bool b']))
      (at_ (nextOf W (inspected (C.cells w0).length g)) (C.cells w ++ [cell it, .bool b])) w (next it) := by
  rw [C.len w0 w] at hg ⊢
  simp [inspected, nextOf, at_bind, hname, hfn, -Bool.exists_bool]
  rw [show next it = next it >>= pure from (bind_pure _).symm]
  refine Same.bind (hnext it b w) fun a r w' hr => ?_
  subst hr
  rw [C.len w w'] at hg
  obtain ⟨o, it'⟩ := r
  cases o with
  | none =>
    simp [-Bool.exists_bool]
    exact Same.pure ⟨b, rfl⟩
  | some v =>
    simp [at_bind, at_scope, at_catchRet, hg, scope_none, -Bool.exists_bool]
    exact Same.pure ⟨true, rfl⟩

theorem hintOf_inspected {It : Type} (cell : It → Val X Y) (name : String) (fn : Fn)
    (hname : ∀ it, typeOf (cell it) = name) (hfn : Text.find W.verbose name "size_hint" = some fn)
    (hint : It → Nat × Option Nat)
    (hhint : ∀ it, callFn W fn [cell it] = pure (.tuple [.nat (hint it).1, ofOption .nat (hint it).2]))
    (w0 : τ) (g : Env X Y) (it : It) (b : Bool) (w : τ) :
    at_ (hintOf W (inspected (C.cells w0).length g)) (C.cells w ++ [cell it, .bool b])
      = pure (.ok (hint it), C.cells w ++ [cell it, .bool b]) := by
  rw [C.len w0 w]
  simp [inspected, hintOf, at_bind, hname, hfn, hhint]
  obtain ⟨m, o⟩ := hint it
  cases o <;> simp

/-- `FromIterator::from_iter(iter.by_ref().inspect(|_| item = true))` -/
theorem from_iter {T It : Type} {t : T → Val X Y} {c : Machine τ U T} (hc : CollectsIn C W.collect c u t)
    (cell : It → Val X Y) (name : String) (nextFn hintFn : Fn) (hname : ∀ it, typeOf (cell it) = name)
    (hfn : Text.find W.verbose name "next" = some nextFn) (hfh : Text.find W.verbose name "size_hint" = some hintFn)
    (next : It → M τ (Option U × It)) (hint : It → Nat × Option Nat)
    (hnext : ∀ it b w, Same C (fun a r w' => a = (.ok (ofOption u r.1), C.cells w' ++ [cell r.2, .bool b]))
      (at_ (callFn W nextFn [.loc (C.cells w).length []]) (C.cells w ++ [cell it, .bool b])) w (next it))
    (hhint : ∀ it, callFn W hintFn [cell it] = pure (.tuple [.nat (hint it).1, ofOption .nat (hint it).2]))
    (w : τ) (g : Env X Y) (hg : find g "item" = some (.inr ((C.cells w).length + 1))) (it : It) (b : Bool) :
    Same C (fun a r w' => ∃ b', a = (.ok (t r.1), C.cells w' ++ [cell r.2, .bool b']))
      (at_ (drive W.collect (nextOf W (inspected (C.cells w).length g)) (hintOf W (inspected (C.cells w).length g)))
        (C.cells w ++ [cell it, .bool b])) w (c.driver It next hint it) :=
  drive_same C hc (fun it b => [cell it, .bool b])
    (fun it b w' => nextOf_inspected W C u cell name nextFn hname hfn next hnext w g hg it b w')
    (fun it b w' => hintOf_inspected W C cell name hintFn hname hfh hint hhint w g it b w') it b w

/-- `Iterator::next` of the iterator, called from `Inspect`. -/
theorem Range_next (h : IsParserIn C W f u e p) (it : Bounded.Iter X E (Nat × Nat)) (b : Bool) (w : τ) :
    Same C (fun a r w' => a = (.ok (ofOption u r.1), C.cells w' ++ [ofIter "Iter of Range::parse_many" f e ofPair r.2, .bool b]))
      (at_ (callFn W Text.Range_parse_many_next [.loc (C.cells w).length []])
        (C.cells w ++ [ofIter "Iter of Range::parse_many" f e ofPair it, .bool b])) w
      (Bounded.iterNext Bounded.hooksRange p it) := by
  rw [callFn, Bounded.iterNext]
  obtain ⟨s, i, min, max⟩ := it
  by_cases hm : max = 0
  · simp [Text.Range_parse_many_next, scope_none, at_scope, at_bind, at_catchRet, ofIter, ofPair, hm, Bounded.hooksRange]
    exact Same.pure rfl
  · simp [Text.Range_parse_many_next, scope_none, at_scope, at_bind, at_catchRet, ofIter, ofPair, hm, Bounded.hooksRange]
    refine Same.bind (h i w _) fun a r w' hr => ?_
    subst hr
    rw [C.len w w']
    cases r with
    | data b v =>
      by_cases hn : min = 0 <;> simp [ofResult, evalArms, scope_none, at_bind, hn, Bounded.decSat, Bounded.dec]
      · refine Same.lift _ fun max => ?_
        exact Same.pure rfl
      · refine Same.lift _ fun min => ?_
        refine Same.lift _ fun max => ?_
        exact Same.pure rfl
    | error b a =>
      simp [ofResult, evalArms, scope_none, at_bind]
      exact Same.pure rfl
    | incomplete n =>
      simp [ofResult, evalArms, scope_none, at_bind]
      exact Same.pure rfl

theorem Range_hint (it : Bounded.Iter X E (Nat × Nat)) :
    callFn W Text.Range_parse_many_size_hint [ofIter "Iter of Range::parse_many" f e ofPair it]
      = pure (.tuple [.nat it.data.1, ofOption .nat (some it.data.2)]) := by
  rw [callFn]
  simp [Text.Range_parse_many_size_hint, scope_none, ofIter, ofPair]

section
attribute [local congr] bind_left bind_left'

theorem Range_parse_many_panics (f : Val X Y) (i : Input X) (a b : Nat) (hab : ¬ a ≤ b) (st : List (Val X Y)) :
    at_ (callFn W Text.Range_parse_many [.con "Range" [.nat a, .nat b], ofInput i, f]) st = M.panic := by
  rw [callFn, Text.Range_parse_many]
  simp [scope_none, at_scope, at_bind, at_catchRet, hab, panic_bind]

end

theorem Range_parse_many {T : Type} {t : T → Val X Y} {c : Machine τ U T} (hc : CollectsIn C W.collect c u t)
    (h : IsParserIn C W f u e p) (i : Input X) (a b : Nat) (w : τ) :
    Same C (fun a r w' => a = (.ok (ofResult t e r), C.cells w'))
      (at_ (callFn W Text.Range_parse_many [.con "Range" [.nat a, .nat b], ofInput i, f]) (C.cells w)) w
      (Bounded.manyWith (.range a b) c.driver p i) := by
  by_cases hab : a ≤ b
  · rw [callFn, Bounded.manyWith, Bounded.manyRange, if_pos hab]
    simp [Text.Range_parse_many, scope_none, at_scope, at_bind, at_catchRet, hab, usub_maxOf]
    refine Same.bind (from_iter W C u hc (ofIter "Iter of Range::parse_many" f e ofPair) "Iter of Range::parse_many" _ _
      (fun _ => rfl) (Text.find_Range_parse_many_next _) (Text.find_Range_parse_many_size_hint _)
      (Bounded.iterNext Bounded.hooksRange p) _ (Range_next W C u e f p h) (Range_hint W e f) w _ (by simp)
      ⟨.incomplete 1, i, a, Bounded.maxOf b⟩ false) fun a r w' hr => ?_
    obtain ⟨flag, rfl⟩ := hr
    rw [C.len w w']
    obtain ⟨result, st, s, min, max⟩ := r
    simp [at_bind, ofIter, ofPair]
    rw [callFn]
    simp [Text.Range_parse_many_end_state, scope_none, at_bind]
    rcases min with _ | min <;> rcases max with _ | max <;> cases st <;> cases hl : s.isLastSlice <;>
      simp [evalArms, scope_none, at_bind, ofEndState, hl] <;> exact Same.pure rfl
  · rw [Range_parse_many_panics W f i a b hab, Bounded.manyWith, Bounded.manyRange, if_neg hab]
    exact Same.panic

theorem RangeFrom_next (h : IsParserIn C W f u e p) (it : Bounded.Iter X E Nat) (b : Bool) (w : τ) :
    Same C (fun a r w' => a = (.ok (ofOption u r.1), C.cells w' ++ [ofIter "Iter of RangeFrom::parse_many" f e .nat r.2, .bool b]))
      (at_ (callFn W Text.RangeFrom_parse_many_next [.loc (C.cells w).length []])
        (C.cells w ++ [ofIter "Iter of RangeFrom::parse_many" f e .nat it, .bool b])) w
      (Bounded.iterNext Bounded.hooksFrom p it) := by
  rw [callFn, Bounded.iterNext]
  obtain ⟨s, i, n⟩ := it
  · simp [Text.RangeFrom_parse_many_next, scope_none, at_scope, at_bind, at_catchRet, ofIter, Bounded.hooksFrom]
    refine Same.bind (h i w _) fun a r w' hr => ?_
    subst hr
    rw [C.len w w']
    cases r with
    | data b v =>
      by_cases hn : n = 0 <;> simp [ofResult, evalArms, scope_none, at_bind, hn, Bounded.decSat, Bounded.dec]
      · exact Same.pure rfl
      · refine Same.lift _ fun max => ?_
        exact Same.pure rfl
    | error b a =>
      simp [ofResult, evalArms, scope_none, at_bind]
      exact Same.pure rfl
    | incomplete n =>
      simp [ofResult, evalArms, scope_none, at_bind]
      exact Same.pure rfl

theorem RangeFrom_hint (it : Bounded.Iter X E Nat) :
    callFn W Text.RangeFrom_parse_many_size_hint [ofIter "Iter of RangeFrom::parse_many" f e .nat it]
      = pure (.tuple [.nat it.data, ofOption .nat none]) := by
  rw [callFn]
  simp [Text.RangeFrom_parse_many_size_hint, scope_none, ofIter]

theorem RangeFrom_parse_many {T : Type} {t : T → Val X Y} {c : Machine τ U T} (hc : CollectsIn C W.collect c u t)
    (h : IsParserIn C W f u e p) (i : Input X) (a : Nat) (w : τ) :
    Same C (fun a r w' => a = (.ok (ofResult t e r), C.cells w'))
      (at_ (callFn W Text.RangeFrom_parse_many [.con "RangeFrom" [.nat a], ofInput i, f]) (C.cells w)) w
      (Bounded.manyWith (.from_ a) c.driver p i) := by
  rw [callFn, Bounded.manyWith, Bounded.manyFrom]
  simp [Text.RangeFrom_parse_many, scope_none, at_scope, at_bind, at_catchRet, usub_maxOf]
  refine Same.bind (from_iter W C u hc (ofIter "Iter of RangeFrom::parse_many" f e .nat) "Iter of RangeFrom::parse_many" _ _
    (fun _ => rfl) (Text.find_RangeFrom_parse_many_next _) (Text.find_RangeFrom_parse_many_size_hint _)
    (Bounded.iterNext Bounded.hooksFrom p) _ (RangeFrom_next W C u e f p h) (RangeFrom_hint W e f) w _ (by simp)
    ⟨.incomplete 1, i, a⟩ false) fun a r w' hr => ?_
  obtain ⟨flag, rfl⟩ := hr
  rw [C.len w w']
  obtain ⟨result, st, s, n⟩ := r
  simp [at_bind, ofIter]
  rw [callFn]
  simp [Text.RangeFrom_parse_many_end_state, scope_none, at_bind]
  rcases n with _ | n <;> cases st <;> cases hl : s.isLastSlice <;>
    simp [evalArms, scope_none, at_bind, ofEndState, hl] <;> exact Same.pure rfl

theorem RangeFull_next (h : IsParserIn C W f u e p) (it : Bounded.Iter X E Unit) (b : Bool) (w : τ) :
    Same C (fun a r w' => a = (.ok (ofOption u r.1), C.cells w' ++ [ofIter "Iter of RangeFull::parse_many" f e ofUnit r.2, .bool b]))
      (at_ (callFn W Text.RangeFull_parse_many_next [.loc (C.cells w).length []])
        (C.cells w ++ [ofIter "Iter of RangeFull::parse_many" f e ofUnit it, .bool b])) w
      (Bounded.iterNext Bounded.hooksFull p it) := by
  rw [callFn, Bounded.iterNext]
  obtain ⟨s, i, n⟩ := it
  · simp [Text.RangeFull_parse_many_next, scope_none, at_scope, at_bind, at_catchRet, ofIter, ofUnit, Bounded.hooksFull]
    refine Same.bind (h i w _) fun a r w' hr => ?_
    subst hr
    rw [C.len w w']
    cases r with
    | data b v =>
      simp [ofResult, evalArms, scope_none, at_bind, ofUnit]
      exact Same.pure rfl
    | error b a =>
      simp [ofResult, evalArms, scope_none, at_bind, ofUnit]
      exact Same.pure rfl
    | incomplete n =>
      simp [ofResult, evalArms, scope_none, at_bind, ofUnit]
      exact Same.pure rfl

theorem RangeFull_hint (it : Bounded.Iter X E Unit) :
    callFn W Text.RangeFull_parse_many_size_hint [ofIter "Iter of RangeFull::parse_many" f e ofUnit it]
      = pure (.tuple [.nat 0, ofOption .nat none]) := by
  rw [callFn]
  simp [Text.RangeFull_parse_many_size_hint, scope_none, ofIter, ofUnit]

theorem RangeFull_parse_many {T : Type} {t : T → Val X Y} {c : Machine τ U T} (hc : CollectsIn C W.collect c u t)
    (h : IsParserIn C W f u e p) (i : Input X) (w : τ) :
    Same C (fun a r w' => a = (.ok (ofResult t e r), C.cells w'))
      (at_ (callFn W Text.RangeFull_parse_many [.con "RangeFull" [], ofInput i, f]) (C.cells w)) w
      (Bounded.manyWith .full c.driver p i) := by
  rw [callFn, Bounded.manyWith, Bounded.manyFull]
  simp [Text.RangeFull_parse_many, scope_none, at_scope, at_bind, at_catchRet, usub_maxOf]
  refine Same.bind (from_iter W C u hc (ofIter "Iter of RangeFull::parse_many" f e ofUnit) "Iter of RangeFull::parse_many" _ _
    (fun _ => rfl) (Text.find_RangeFull_parse_many_next _) (Text.find_RangeFull_parse_many_size_hint _)
    (Bounded.iterNext Bounded.hooksFull p) _ (RangeFull_next W C u e f p h) (RangeFull_hint W e f) w _ (by simp)
    ⟨.incomplete 1, i, ()⟩ false) fun a r w' hr => ?_
  obtain ⟨flag, rfl⟩ := hr
  rw [C.len w w']
  obtain ⟨result, st, s, n⟩ := r
  simp [at_bind, ofIter, ofUnit]
  rw [callFn]
  simp [Text.RangeFull_parse_many_end_state, scope_none, at_bind]
  cases st <;> cases hl : s.isLastSlice <;>
    simp [evalArms, scope_none, at_bind, ofEndState, hl] <;> exact Same.pure rfl

theorem RangeTo_next (h : IsParserIn C W f u e p) (it : Bounded.Iter X E Nat) (b : Bool) (w : τ) :
    Same C (fun a r w' => a = (.ok (ofOption u r.1), C.cells w' ++ [ofIter "Iter of RangeTo::parse_many" f e .nat r.2, .bool b]))
      (at_ (callFn W Text.RangeTo_parse_many_next [.loc (C.cells w).length []])
        (C.cells w ++ [ofIter "Iter of RangeTo::parse_many" f e .nat it, .bool b])) w
      (Bounded.iterNext Bounded.hooksTo p it) := by
  rw [callFn, Bounded.iterNext]
  obtain ⟨s, i, n⟩ := it
  by_cases hm : n = 0
  · simp [Text.RangeTo_parse_many_next, scope_none, at_scope, at_bind, at_catchRet, ofIter, hm, Bounded.hooksTo]
    exact Same.pure rfl
  · simp [Text.RangeTo_parse_many_next, scope_none, at_scope, at_bind, at_catchRet, ofIter, hm, Bounded.hooksTo]
    refine Same.bind (h i w _) fun a r w' hr => ?_
    subst hr
    rw [C.len w w']
    cases r with
    | data b v =>
      simp [ofResult, evalArms, scope_none, at_bind, Bounded.dec]
      refine Same.lift _ fun max => ?_
      exact Same.pure rfl
    | error b a =>
      simp [ofResult, evalArms, scope_none, at_bind]
      exact Same.pure rfl
    | incomplete n =>
      simp [ofResult, evalArms, scope_none, at_bind]
      exact Same.pure rfl

theorem RangeTo_hint (it : Bounded.Iter X E Nat) :
    callFn W Text.RangeTo_parse_many_size_hint [ofIter "Iter of RangeTo::parse_many" f e .nat it]
      = pure (.tuple [.nat 0, ofOption .nat (some it.data)]) := by
  rw [callFn]
  simp [Text.RangeTo_parse_many_size_hint, scope_none, ofIter]

theorem RangeTo_parse_many {T : Type} {t : T → Val X Y} {c : Machine τ U T} (hc : CollectsIn C W.collect c u t)
    (h : IsParserIn C W f u e p) (i : Input X) (b : Nat) (w : τ) :
    Same C (fun a r w' => a = (.ok (ofResult t e r), C.cells w'))
      (at_ (callFn W Text.RangeTo_parse_many [.con "RangeTo" [.nat b], ofInput i, f]) (C.cells w)) w
      (Bounded.manyWith (.to b) c.driver p i) := by
  rw [callFn, Bounded.manyWith, Bounded.manyTo]
  simp [Text.RangeTo_parse_many, scope_none, at_scope, at_bind, at_catchRet, usub_maxOf]
  refine Same.bind (from_iter W C u hc (ofIter "Iter of RangeTo::parse_many" f e .nat) "Iter of RangeTo::parse_many" _ _
    (fun _ => rfl) (Text.find_RangeTo_parse_many_next _) (Text.find_RangeTo_parse_many_size_hint _)
    (Bounded.iterNext Bounded.hooksTo p) _ (RangeTo_next W C u e f p h) (RangeTo_hint W e f) w _ (by simp)
    ⟨.incomplete 1, i, Bounded.maxOf b⟩ false) fun a r w' hr => ?_
  obtain ⟨flag, rfl⟩ := hr
  rw [C.len w w']
  obtain ⟨result, st, s, n⟩ := r
  simp [at_bind, ofIter]
  rw [callFn]
  simp [Text.RangeTo_parse_many_end_state, scope_none, at_bind]
  rcases n with _ | n <;> cases st <;> cases hl : s.isLastSlice <;>
    simp [evalArms, scope_none, at_bind, ofEndState, hl] <;> exact Same.pure rfl

theorem usize_next (h : IsParserIn C W f u e p) (it : Bounded.Iter X E Nat) (b : Bool) (w : τ) :
    Same C (fun a r w' => a = (.ok (ofOption u r.1), C.cells w' ++ [ofIter "Iter of usize::parse_many" f e .nat r.2, .bool b]))
      (at_ (callFn W Text.usize_parse_many_next [.loc (C.cells w).length []])
        (C.cells w ++ [ofIter "Iter of usize::parse_many" f e .nat it, .bool b])) w
      (Bounded.iterNext Bounded.hooksExactly p it) := by
  rw [callFn, Bounded.iterNext]
  obtain ⟨s, i, n⟩ := it
  by_cases hm : n = 0
  · simp [Text.usize_parse_many_next, scope_none, at_scope, at_bind, at_catchRet, ofIter, hm, Bounded.hooksExactly]
    exact Same.pure rfl
  · simp [Text.usize_parse_many_next, scope_none, at_scope, at_bind, at_catchRet, ofIter, hm, Bounded.hooksExactly]
    refine Same.bind (h i w _) fun a r w' hr => ?_
    subst hr
    rw [C.len w w']
    cases r with
    | data b v =>
      simp [ofResult, evalArms, scope_none, at_bind, Bounded.dec]
      refine Same.lift _ fun max => ?_
      exact Same.pure rfl
    | error b a =>
      simp [ofResult, evalArms, scope_none, at_bind]
      exact Same.pure rfl
    | incomplete n =>
      simp [ofResult, evalArms, scope_none, at_bind]
      exact Same.pure rfl

theorem usize_hint (it : Bounded.Iter X E Nat) :
    callFn W Text.usize_parse_many_size_hint [ofIter "Iter of usize::parse_many" f e .nat it]
      = pure (.tuple [.nat it.data, ofOption .nat (some it.data)]) := by
  rw [callFn]
  simp [Text.usize_parse_many_size_hint, scope_none, ofIter]

theorem usize_parse_many {T : Type} {t : T → Val X Y} {c : Machine τ U T} (hc : CollectsIn C W.collect c u t)
    (h : IsParserIn C W f u e p) (i : Input X) (k : Nat) (w : τ) :
    Same C (fun a r w' => a = (.ok (ofResult t e r), C.cells w'))
      (at_ (callFn W Text.usize_parse_many [.nat k, ofInput i, f]) (C.cells w)) w
      (Bounded.manyWith (.exactly k) c.driver p i) := by
  rw [callFn, Bounded.manyWith, Bounded.manyExactly]
  simp [Text.usize_parse_many, scope_none, at_scope, at_bind, at_catchRet, usub_maxOf]
  refine Same.bind (from_iter W C u hc (ofIter "Iter of usize::parse_many" f e .nat) "Iter of usize::parse_many" _ _
    (fun _ => rfl) (Text.find_usize_parse_many_next _) (Text.find_usize_parse_many_size_hint _)
    (Bounded.iterNext Bounded.hooksExactly p) _ (usize_next W C u e f p h) (usize_hint W e f) w _ (by simp)
    ⟨.incomplete 1, i, k⟩ false) fun a r w' hr => ?_
  obtain ⟨flag, rfl⟩ := hr
  rw [C.len w w']
  obtain ⟨result, st, s, n⟩ := r
  simp [at_bind, ofIter]
  rw [callFn]
  simp [Text.usize_parse_many_end_state, scope_none, at_bind]
  rcases n with _ | n <;> cases st <;> cases hl : s.isLastSlice <;>
    simp [evalArms, scope_none, at_bind, ofEndState, hl] <;> exact Same.pure rfl

end Chomp.Rust
