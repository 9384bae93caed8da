import Verif.Rust.Loops
import Verif.Rust.Ascii

/-
The texts of the `skip_many` functions of /repo/src/combinators/bounded.rs do what their models say.
-/

set_option linter.unusedSimpArgs false

namespace Chomp.Rust

variable {σ X Y : Type}

variable [Build] (W : World σ X Y)

attribute [local simp] apply eval evals callStd callMethod_eq receiver matchPats matchPat find Val.field
  index constant binop stdByMut stdCall optV indexSlice ofMode ofOption place

attribute [-simp] bind_pure_comp

theorem RangeFull_skip_many (t : T → Val X Y) (e : E → Val X Y) (f : Val X Y) (p : Parser σ X T E)
    (h : IsParser W f t e p) (i : Input X) :
    callFn W Text.RangeFull_skip_many [.con "RangeFull" [], ofInput i, f]
      = toR (do let r ← Bounded.skipMany .full p i; pure (ofResult ofUnit e r)) := by
  rw [callFn]
  refine ext_at fun st => ?_
  simp [Text.RangeFull_skip_many, scope_none, at_scope, at_bind, at_catchRet]
  rw [at_iterate _ _ (fun i => st ++ [ofInput i, f]) _ (fun r => (.ok (ofResult ofUnit e r), st))]
  · rw [Bounded.skipMany, Bounded.skipManyFull]
  · intro i
    have h' := h i
    simp [at_bind, h']
    refine Both.bind _ fun r => ?_
    cases r with
    | data b a =>
      simp [ofResult, evalArms, scope_none, at_bind]
      exact Turn.go _ rfl
    | error b a =>
      simp [ofResult, evalArms, scope_none, at_bind]
      refine Turn.brk ?_
      simp [at_bind, Input.ret, ofUnit]
    | incomplete n =>
      cases hl : i.isLastSlice <;> simp [ofResult, evalArms, scope_none, at_bind, hl]
      · refine Turn.ret ?_
        simp [at_bind, Input.incomplete]
      · refine Turn.brk ?_
        simp [at_bind, Input.ret, ofUnit]

omit [Build] in
theorem panic_bind (f : α → M σ β) : (M.panic >>= f) = M.panic := rfl

section
omit [Build] in
theorem bind_left {x x' : RM σ X Y α} (h : x = x') (f : α → RM σ X Y β) : (x >>= f) = (x' >>= f) := by rw [h]

omit [Build] in
theorem bind_left' {x x' : M σ α} (h : x = x') (f : α → M σ β) : (x >>= f) = (x' >>= f) := by rw [h]

attribute [local congr] bind_left bind_left'

theorem Range_skip_many_panics (f : Val X Y) (i : Input X) (a b : Nat) (hab : ¬ a ≤ b) (st : List (Val X Y)) :
    at_ (callFn W Text.Range_skip_many [.con "Range" [.nat a, .nat b], ofInput i, f]) st = M.panic := by
  rw [callFn, Text.Range_skip_many]
  simp [scope_none, at_scope, at_bind, at_catchRet, hab, panic_bind]

end

/-- `max(end, 1) - 1` -/
theorem usub_maxOf (n : Nat) : usub (max n 1) 1 = .ok (Bounded.maxOf n) := by
  rw [usub, if_pos (Nat.le_max_right _ _), Bounded.maxOf]

theorem Range_skip_many (t : T → Val X Y) (e : E → Val X Y) (f : Val X Y) (p : Parser σ X T E)
    (h : IsParser W f t e p) (i : Input X) (a b : Nat) :
    callFn W Text.Range_skip_many [.con "Range" [.nat a, .nat b], ofInput i, f]
      = toR (do let r ← Bounded.skipMany (.range a b) p i; pure (ofResult ofUnit e r)) := by
  refine ext_at fun st => ?_
  by_cases hab : a ≤ b
  · rw [callFn]
    simp [Text.Range_skip_many, scope_none, at_scope, at_bind, at_catchRet, hab, usub_maxOf]
    rw [show Bounded.skipMany (.range a b) p i = _ from if_pos hab]
    rw [at_iterate _ _ (fun s : Input X × Nat × Nat => st ++ [ofInput s.1, f, .nat s.2.1, .nat s.2.2]) _
      (fun r => (.ok (ofResult ofUnit e r), st)) _ (i, a, Bounded.maxOf b)]
    intro s
    obtain ⟨i, min, max⟩ := s
    have h' := h i
    by_cases hm : max = 0
    · simp [at_bind, hm]
      refine Turn.brk ?_
      simp [at_bind, Input.ret, ofUnit, ofResult, List.take_length_add_append]
    · simp [at_bind, h', hm]
      refine Both.bind _ fun r => ?_
      cases r with
      | data b a =>
        by_cases hn : min = 0 <;> simp [ofResult, evalArms, scope_none, at_bind, hn, Bounded.decSat, Bounded.dec]
        · refine Both.bind _ fun max => ?_
          exact Turn.go _ rfl
        · refine Both.bind _ fun min => ?_
          refine Both.bind _ fun max => ?_
          exact Turn.go _ rfl
      | error b a =>
        by_cases hn : min = 0 <;> simp [ofResult, evalArms, scope_none, at_bind, hn]
        · refine Turn.brk ?_
          simp [at_bind, Input.ret, ofUnit, ofResult, List.take_length_add_append]
        · refine Turn.ret ?_
          simp [at_bind, Input.err, Input.replace, ofResult, List.take_length_add_append]
      | incomplete n =>
        by_cases hn : min = 0 <;> cases hl : i.isLastSlice <;>
          simp [ofResult, evalArms, scope_none, at_bind, hn, hl]
        · refine Turn.ret ?_
          simp [at_bind, Input.incomplete, ofResult, List.take_length_add_append]
        · refine Turn.brk ?_
          simp [at_bind, Input.ret, ofUnit, ofResult, List.take_length_add_append]
        · refine Turn.ret ?_
          simp [at_bind, Input.incomplete, ofResult, List.take_length_add_append]
        · refine Turn.ret ?_
          simp [at_bind, Input.incomplete, ofResult, List.take_length_add_append]
  · rw [show Bounded.skipMany (.range a b) p i = _ from if_neg hab, Range_skip_many_panics W f i a b hab]
    rfl

theorem RangeFrom_skip_many (t : T → Val X Y) (e : E → Val X Y) (f : Val X Y) (p : Parser σ X T E)
    (h : IsParser W f t e p) (i : Input X) (a : Nat) :
    callFn W Text.RangeFrom_skip_many [.con "RangeFrom" [.nat a], ofInput i, f]
      = toR (do let r ← Bounded.skipMany (.from_ a) p i; pure (ofResult ofUnit e r)) := by
  rw [callFn]
  refine ext_at fun st => ?_
  simp [Text.RangeFrom_skip_many, scope_none, at_scope, at_bind, at_catchRet]
  rw [Bounded.skipMany, Bounded.skipManyFrom]
  rw [at_iterate _ _ (fun s : Input X × Nat => st ++ [ofInput s.1, f, .nat s.2]) _
    (fun r => (.ok (ofResult ofUnit e r), st)) _ (i, a)]
  intro s
  obtain ⟨i, min⟩ := s
  have h' := h i
  simp [at_bind, h']
  refine Both.bind _ fun r => ?_
  cases r with
  | data b a =>
    by_cases hn : min = 0 <;> simp [ofResult, evalArms, scope_none, at_bind, hn, Bounded.decSat, Bounded.dec]
    · exact Turn.go _ rfl
    · refine Both.bind _ fun min => ?_
      exact Turn.go _ rfl
  | error b a =>
    by_cases hn : min = 0 <;> simp [ofResult, evalArms, scope_none, at_bind, hn]
    · refine Turn.brk ?_
      simp [at_bind, Input.ret, ofUnit, ofResult, List.take_length_add_append]
    · refine Turn.ret ?_
      simp [at_bind, Input.err, Input.replace, ofResult, List.take_length_add_append]
  | incomplete n =>
    by_cases hn : min = 0 <;> cases hl : i.isLastSlice <;>
      simp [ofResult, evalArms, scope_none, at_bind, hn, hl]
    · refine Turn.ret ?_
      simp [at_bind, Input.incomplete, ofResult, List.take_length_add_append]
    · refine Turn.brk ?_
      simp [at_bind, Input.ret, ofUnit, ofResult, List.take_length_add_append]
    · refine Turn.ret ?_
      simp [at_bind, Input.incomplete, ofResult, List.take_length_add_append]
    · refine Turn.ret ?_
      simp [at_bind, Input.incomplete, ofResult, List.take_length_add_append]

theorem RangeTo_skip_many (t : T → Val X Y) (e : E → Val X Y) (f : Val X Y) (p : Parser σ X T E)
    (h : IsParser W f t e p) (i : Input X) (b : Nat) :
    callFn W Text.RangeTo_skip_many [.con "RangeTo" [.nat b], ofInput i, f]
      = toR (do let r ← Bounded.skipMany (.to b) p i; pure (ofResult ofUnit e r)) := by
  rw [callFn]
  refine ext_at fun st => ?_
  simp [Text.RangeTo_skip_many, scope_none, at_scope, at_bind, at_catchRet, usub_maxOf]
  rw [Bounded.skipMany, Bounded.skipManyTo]
  rw [at_iterate _ _ (fun s : Input X × Nat => st ++ [ofInput s.1, f, .nat s.2]) _
    (fun r => (.ok (ofResult ofUnit e r), st)) _ (i, Bounded.maxOf b)]
  intro s
  obtain ⟨i, max⟩ := s
  have h' := h i
  by_cases hm : max = 0
  · simp [at_bind, hm]
    refine Turn.brk ?_
    simp [at_bind, Input.ret, ofUnit, ofResult, List.take_length_add_append]
  · simp [at_bind, h', hm]
    refine Both.bind _ fun r => ?_
    cases r with
    | data b a =>
      simp [ofResult, evalArms, scope_none, at_bind, Bounded.dec]
      refine Both.bind _ fun max => ?_
      exact Turn.go _ rfl
    | error b a =>
      simp [ofResult, evalArms, scope_none, at_bind]
      refine Turn.brk ?_
      simp [at_bind, Input.ret, ofUnit, ofResult, List.take_length_add_append]
    | incomplete n =>
      cases hl : i.isLastSlice <;> simp [ofResult, evalArms, scope_none, at_bind, hl]
      · refine Turn.ret ?_
        simp [at_bind, Input.incomplete, ofResult, List.take_length_add_append]
      · refine Turn.brk ?_
        simp [at_bind, Input.ret, ofUnit, ofResult, List.take_length_add_append]

theorem usize_skip_many (t : T → Val X Y) (e : E → Val X Y) (f : Val X Y) (p : Parser σ X T E)
    (h : IsParser W f t e p) (i : Input X) (n : Nat) :
    callFn W Text.usize_skip_many [.nat n, ofInput i, f]
      = toR (do let r ← Bounded.skipMany (.exactly n) p i; pure (ofResult ofUnit e r)) := by
  rw [callFn]
  refine ext_at fun st => ?_
  simp [Text.usize_skip_many, scope_none, at_scope, at_bind, at_catchRet]
  rw [Bounded.skipMany, Bounded.skipManyExactly]
  rw [at_iterate _ _ (fun s : Input X × Nat => st ++ [ofInput s.1, f, .nat s.2]) _
    (fun r => (.ok (ofResult ofUnit e r), st)) _ (i, n)]
  intro s
  obtain ⟨i, n⟩ := s
  have h' := h i
  by_cases hm : n = 0
  · simp [at_bind, hm]
    refine Turn.brk ?_
    simp [at_bind, Input.ret, ofUnit, ofResult, List.take_length_add_append]
  · simp [at_bind, h', hm]
    refine Both.bind _ fun r => ?_
    cases r with
    | data b a =>
      simp [ofResult, evalArms, scope_none, at_bind, Bounded.dec]
      refine Both.bind _ fun max => ?_
      exact Turn.go _ rfl
    | error b a =>
      simp [ofResult, evalArms, scope_none, at_bind, hm]
      refine Turn.ret ?_
      simp [at_bind, Input.err, Input.replace, ofResult, List.take_length_add_append]
    | incomplete k =>
      by_cases hk : k = 0 <;> simp [ofResult, evalArms, scope_none, at_bind, hk]
      · refine Turn.brk ?_
        simp [at_bind, Input.ret, ofUnit, ofResult, List.take_length_add_append]
      · refine Turn.ret ?_
        simp [at_bind, Input.incomplete, ofResult, List.take_length_add_append]

/-- The values of the types implementing `BoundedRange`, src/combinators/bounded.rs:102, 251, 369, 458, 581. -/
def ofRange : Bounded.Range → Val X Y
  | .range a b => .con "Range" [.nat a, .nat b]
  | .from_ n => .con "RangeFrom" [.nat n]
  | .full => .con "RangeFull" []
  | .to n => .con "RangeTo" [.nat n]
  | .exactly n => .nat n

theorem bounded_skip_many (t : T → Val X Y) (e : E → Val X Y) (f : Val X Y) (p : Parser σ X T E)
    (h : IsParser W f t e p) (i : Input X) (r : Bounded.Range) :
    callFn W Text.bounded_skip_many [ofInput i, ofRange r, f]
      = toR (do let r ← Bounded.skipMany r p i; pure (ofResult ofUnit e r)) := by
  rw [callFn]
  cases r with
  | range a b => simp [Text.bounded_skip_many, scope_none, ofRange, Range_skip_many W t e f p h]
  | from_ n => simp [Text.bounded_skip_many, scope_none, ofRange, RangeFrom_skip_many W t e f p h]
  | full => simp [Text.bounded_skip_many, scope_none, ofRange, RangeFull_skip_many W t e f p h]
  | to n => simp [Text.bounded_skip_many, scope_none, ofRange, RangeTo_skip_many W t e f p h]
  | exactly n => simp [Text.bounded_skip_many, scope_none, ofRange, usize_skip_many W t e f p h]

theorem skip_many (t : T → Val X Y) (e : E → Val X Y) (f : Val X Y) (p : Parser σ X T E)
    (h : IsParser W f t e p) (i : Input X) :
    callFn W Text.skip_many [ofInput i, f]
      = toR (do let r ← Comb.skipMany p i; pure (ofResult ofUnit e r)) := by
  rw [callFn]
  simp [Text.skip_many, scope_none, Comb.skipMany]
  have hb := bounded_skip_many W t e f p h i .full
  rw [ofRange] at hb
  simp [hb]

theorem skip_many1 (t : T → Val X Y) (e : E → Val X Y) (f : Val X Y) (p : Parser σ X T E)
    (h : IsParser W f t e p) (i : Input X) :
    callFn W Text.skip_many1 [ofInput i, f]
      = toR (do let r ← Comb.skipMany1 p i; pure (ofResult ofUnit e r)) := by
  rw [callFn]
  simp [Text.skip_many1, scope_none, Comb.skipMany1]
  have hb := bounded_skip_many W t e f p h i (.from_ 1)
  rw [ofRange] at hb
  simp [hb]

end Chomp.Rust
