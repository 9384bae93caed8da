import Verif.Lemmas.Compare

/-
C96: derived comparisons (src/input.rs:77, src/parse_result.rs:17 and 82, src/parsers.rs:416 and 496,
src/parse.rs:6).
-/

namespace Chomp.Props
open Chomp.Spec

/-- Inputs, results and errors are totally ordered if items, values and errors are, and `==` agrees. -/
theorem C96_order {eq : I → I → Bool} {ci : I → I → Ordering} {eqt : T → T → Bool} {ct : T → T → Ordering}
    {eqe : E → E → Bool} {ce : E → E → Ordering} (hi : TotalOrder eq ci) (ht : TotalOrder eqt ct)
    (he : TotalOrder eqe ce) :
    TotalOrder (Compare.inputEq eq) (Compare.input ci) ∧
    TotalOrder (Compare.resultEq eq eqt eqe) (Compare.result ci ct ce) ∧
    TotalOrder (Compare.errorEq eq) (Compare.error ci) :=
  ⟨Compare.input_ordered hi, Compare.result_ordered hi ht he, Compare.error_ordered hi⟩

/-- Successes come before errors, and these before incomplete results. Successes are ordered by whether their
input is the last slice, then by what is left, then by their values; errors by where they are, then by their
values; incomplete results by what they ask for. -/
theorem C96_kinds (ci : I → I → Ordering) (ct : T → T → Ordering) (ce : E → E → Ordering) (i : Input I) (t : T)
    (b : List I) (e : E) (n : Nat) :
    Compare.result ci ct ce (.data i t) (.error b e) = .lt ∧
    Compare.result ci ct ce (.error b e) (.incomplete n) = .lt ∧
    Compare.result ci ct ce (.data i t) (.incomplete n) = .lt ∧
    (∀ s s' u, Compare.result ci ct ce (.data ⟨.default, s⟩ t) (.data ⟨.endOfInput, s'⟩ u) = .lt) ∧
    (∀ m s s' u, Compare.slice ci s s' = .lt →
      Compare.result ci ct ce (.data ⟨m, s⟩ t) (.data ⟨m, s'⟩ u) = .lt) ∧
    (∀ s s' f, Compare.slice ci s s' = .lt → Compare.result ci ct ce (.error s e) (.error s' f) = .lt) ∧
    (∀ m, Compare.result ci ct ce (.incomplete m) (.incomplete n) = .lt ↔ m < n) := by
  refine ⟨rfl, rfl, rfl, fun _ _ _ => rfl, fun m s s' u h => ?_, fun s s' f h => ?_, fun m => ?_⟩
  · cases m <;> simp [Compare.result, Compare.input, h, Compare.bits, Compare.number]
  · simp [Compare.result, h]
  · simp [Compare.result, Compare.number, Nat.compare_eq_lt]

/-- Errors for single items come before `Unexpected`, and this before errors for strings; within a kind what was
wanted decides. -/
theorem C96_errors (ci : I → I → Ordering) (c c' : I) (s s' : List I) :
    Compare.error ci (.expected c) .unexpected = .lt ∧ Compare.error ci .unexpected (.string s) = .lt ∧
    Compare.error ci (.expected c) (.string s) = .lt ∧
    Compare.error ci (.expected c) (.expected c') = ci c c' ∧
    Compare.error ci (.string s) (.string s') = Compare.slice ci s s' := ⟨rfl, rfl, rfl, rfl, rfl⟩

/-- Slices are ordered like words in a dictionary. -/
theorem C96_slices {eq : I → I → Bool} {ci : I → I → Ordering} (hi : TotalOrder eq ci) (s t : List I) :
    Compare.slice ci s t = .lt ↔ ∃ p p' r u, Compare.sliceEq eq p p' = true ∧ s = p ++ r ∧ t = p' ++ u ∧
      ((r = [] ∧ u ≠ []) ∨ ∃ c d r' u', r = c :: r' ∧ u = d :: u' ∧ ci c d = .lt) := by
  induction s generalizing t with
  | nil =>
    cases t with
    | nil =>
      refine ⟨nofun, ?_⟩
      rintro ⟨p, p', r, u, _, h1, h2, h3⟩
      obtain ⟨rfl, rfl⟩ := List.append_eq_nil_iff.1 h1.symm
      obtain ⟨rfl, rfl⟩ := List.append_eq_nil_iff.1 h2.symm
      simp at h3
    | cons d t => exact ⟨fun _ => ⟨[], [], [], d :: t, rfl, rfl, rfl, Or.inl ⟨rfl, nofun⟩⟩, fun _ => rfl⟩
  | cons c s ih =>
    cases t with
    | nil =>
      refine ⟨nofun, ?_⟩
      rintro ⟨p, p', r, u, h0, h1, h2, h3⟩
      obtain ⟨rfl, rfl⟩ := List.append_eq_nil_iff.1 h2.symm
      cases p with
      | nil => cases h1; simp at h3
      | cons => simp [Compare.sliceEq] at h0
    | cons d t =>
      simp only [Compare.slice]
      constructor
      · intro h
        cases hc : ci c d with
        | lt => exact ⟨[], [], c :: s, d :: t, rfl, rfl, rfl, Or.inr ⟨c, d, s, t, rfl, rfl, hc⟩⟩
        | gt => rw [hc] at h; cases h
        | eq =>
          rw [hc] at h
          obtain ⟨p, p', r, u, h0, rfl, rfl, h3⟩ := (ih t).1 h
          exact ⟨c :: p, d :: p', r, u, by simp [Compare.sliceEq, h0, (hi.same c d).1 hc], rfl, rfl, h3⟩
      · rintro ⟨p, p', r, u, h0, h1, h2, h3⟩
        cases p with
        | nil =>
          cases p' with
          | cons => simp [Compare.sliceEq] at h0
          | nil =>
            rw [List.nil_append] at h1 h2
            subst h1 h2
            rcases h3 with h3 | ⟨_, _, _, _, h4, h5, h6⟩
            · simp at h3
            · cases h4; cases h5; rw [h6]; rfl
        | cons x p =>
          cases p' with
          | nil => simp [Compare.sliceEq] at h0
          | cons y p' =>
            simp only [Compare.sliceEq, Bool.and_eq_true] at h0
            simp only [List.cons_append, List.cons.injEq] at h1 h2
            obtain ⟨rfl, rfl⟩ := h1
            obtain ⟨rfl, rfl⟩ := h2
            rw [(hi.same _ _).2 h0.1]
            exact (ih _).2 ⟨p, p', r, u, h0.2, rfl, rfl, h3⟩

/-- `==` is an equivalence if that of items, values and errors is. -/
theorem C96_equal {eq : I → I → Bool} {eqt : T → T → Bool} {eqe : E → E → Bool} (hi : Equal eq) (ht : Equal eqt)
    (he : Equal eqe) :
    Equal (Compare.inputEq eq) ∧ Equal (Compare.resultEq eq eqt eqe) ∧ Equal (Compare.errorEq eq) ∧
    Equal (Compare.parseErrorEq eq eqe) := by
  have hs := Compare.slice_equal hi
  have hin : Equal (Compare.inputEq eq) := by
    refine ⟨fun a => ?_, fun a b => ?_, fun a b c => ?_⟩ <;>
      simp only [Compare.inputEq, Bool.and_eq_true, beq_iff_eq]
    · exact ⟨trivial, hs.refl _⟩
    · exact fun ⟨h1, h2⟩ => ⟨h1.symm, hs.symm _ _ h2⟩
    · exact fun ⟨h1, h2⟩ ⟨h3, h4⟩ => ⟨h1.trans h3, hs.trans _ _ _ h2 h4⟩
  refine ⟨hin, ⟨fun a => ?_, fun a b => ?_, fun a b c => ?_⟩, ⟨fun a => ?_, fun a b => ?_, fun a b c => ?_⟩,
    ⟨fun a => ?_, fun a b => ?_, fun a b c => ?_⟩⟩
  · cases a <;> simp [Compare.resultEq, hin.refl, hs.refl, ht.refl, he.refl]
  · cases a <;> cases b <;> simp only [Compare.resultEq, Bool.and_eq_true, beq_iff_eq, reduceCtorEq, false_implies]
    · exact fun ⟨h1, h2⟩ => ⟨hin.symm _ _ h1, ht.symm _ _ h2⟩
    · exact fun ⟨h1, h2⟩ => ⟨hs.symm _ _ h1, he.symm _ _ h2⟩
    · exact Eq.symm
  · cases a <;> cases b <;> cases c <;>
      simp only [Compare.resultEq, Bool.and_eq_true, beq_iff_eq, reduceCtorEq, false_implies, implies_true]
    · exact fun ⟨h1, h2⟩ ⟨h3, h4⟩ => ⟨hin.trans _ _ _ h1 h3, ht.trans _ _ _ h2 h4⟩
    · exact fun ⟨h1, h2⟩ ⟨h3, h4⟩ => ⟨hs.trans _ _ _ h1 h3, he.trans _ _ _ h2 h4⟩
    · exact Eq.trans
  · cases a <;> simp [Compare.errorEq, hs.refl, hi.refl]
  · cases a <;> cases b <;> simp only [Compare.errorEq, reduceCtorEq, false_implies, implies_true]
    · exact hi.symm _ _
    · exact hs.symm _ _
  · cases a <;> cases b <;> cases c <;>
      simp only [Compare.errorEq, reduceCtorEq, false_implies, implies_true]
    · exact hi.trans _ _ _
    · exact hs.trans _ _ _
  · cases a <;> simp [Compare.parseErrorEq, hs.refl, he.refl]
  · cases a <;> cases b <;>
      simp only [Compare.parseErrorEq, Bool.and_eq_true, beq_iff_eq, reduceCtorEq, false_implies]
    · exact fun ⟨h1, h2⟩ => ⟨hs.symm _ _ h1, he.symm _ _ h2⟩
    · exact Eq.symm
  · cases a <;> cases b <;> cases c <;>
      simp only [Compare.parseErrorEq, Bool.and_eq_true, beq_iff_eq, reduceCtorEq, false_implies, implies_true]
    · exact fun ⟨h1, h2⟩ ⟨h3, h4⟩ => ⟨hs.trans _ _ _ h1 h3, he.trans _ _ _ h2 h4⟩
    · exact Eq.trans

/-- `==` is identity if that of items, values and errors is: two results are equal only if the kind, the mode,
the remaining input and the value are the same. -/
theorem C96_identity {eq : I → I → Bool} {eqt : T → T → Bool} {eqe : E → E → Bool} (hi : Identity eq)
    (ht : Identity eqt) (he : Identity eqe) :
    Identity (Compare.inputEq eq) ∧ Identity (Compare.resultEq eq eqt eqe) ∧ Identity (Compare.errorEq eq) ∧
    Identity (Compare.parseErrorEq eq eqe) := by
  refine ⟨Compare.input_identity hi, fun a b => ?_, fun a b => ?_, fun a b => ?_⟩
  · cases a <;> cases b <;>
      simp [Compare.resultEq, Compare.input_identity hi _ _, Compare.slice_identity hi _ _, ht _ _, he _ _]
  · cases a <;> cases b <;> simp [Compare.errorEq, Compare.slice_identity hi _ _, hi _ _]
  · cases a <;> cases b <;> simp [Compare.parseErrorEq, Compare.slice_identity hi _ _, he _ _]

/-- What is equal is hashed in the same way. -/
theorem C96_hash {eq : I → I → Bool} {eqt : T → T → Bool} {eqe : E → E → Bool} {f : I → Compare.Feed}
    {ft : T → Compare.Feed} {fe : E → Compare.Feed} (hi : Hashed eq f) (ht : Hashed eqt ft) (he : Hashed eqe fe) :
    Hashed (Compare.inputEq eq) (Compare.inputHash f) ∧
    Hashed (Compare.resultEq eq eqt eqe) (Compare.resultHash f ft fe) ∧
    Hashed (Compare.errorEq eq) (Compare.errorHash f) := by
  refine ⟨Compare.input_hashed hi, fun a b => ?_, fun a b => ?_⟩
  · cases a <;> cases b <;> simp only [Compare.resultEq, Bool.and_eq_true, beq_iff_eq, reduceCtorEq, false_implies]
    · intro ⟨h1, h2⟩; simp [Compare.resultHash, Compare.input_hashed hi _ _ h1, ht _ _ h2]
    · intro ⟨h1, h2⟩; simp [Compare.resultHash, Compare.slice_hashed hi _ _ h1, he _ _ h2]
    · intro h; rw [h]
  · cases a <;> cases b <;> simp only [Compare.errorEq, reduceCtorEq, false_implies, implies_true]
    · intro h; simp [Compare.errorHash, hi _ _ h]
    · intro h; simp [Compare.errorHash, Compare.slice_hashed hi _ _ h]

/-- What is different is hashed differently, if this holds for items, values and errors (errors of the crate:
with `verbose_error`). -/
theorem C96_hash_tells {eq : I → I → Bool} {eqt : T → T → Bool} {eqe : E → E → Bool} {f : I → Compare.Feed}
    {ft : T → Compare.Feed} {fe : E → Compare.Feed} (hi : Told eq f) (ht : Told eqt ft) (he : Told eqe fe) :
    Told (Compare.inputEq eq) (Compare.inputHash f) ∧
    Told (Compare.resultEq eq eqt eqe) (Compare.resultHash f ft fe) ∧
    ∀ a b x y, a ≠ .generic → b ≠ .generic → Compare.errorHash f a ++ x = Compare.errorHash f b ++ y →
      Compare.errorEq eq a b = true ∧ x = y := by
  refine ⟨Compare.input_told hi, fun a b x y => ?_, fun a b x y ha hb => ?_⟩
  · cases a <;> cases b <;>
      simp only [Compare.resultHash, List.cons_append, List.nil_append, List.cons.injEq, reduceCtorEq, false_and,
        true_and, false_implies, List.append_assoc, Nat.reduceEqDiff, Nat.zero_ne_one, Nat.succ_ne_self]
    · intro e
      obtain ⟨e1, e2⟩ := Compare.input_told hi _ _ _ _ e
      obtain ⟨e3, e4⟩ := ht _ _ _ _ e2
      exact ⟨by simp [Compare.resultEq, e1, e3], e4⟩
    · intro e
      obtain ⟨e1, e2⟩ := Compare.slice_told hi _ _ _ _ e
      obtain ⟨e3, e4⟩ := he _ _ _ _ e2
      exact ⟨by simp [Compare.resultEq, e1, e3], e4⟩
    · exact fun e => ⟨by simp [Compare.resultEq, e.1], e.2⟩
  · cases a <;> cases b <;> simp [Compare.errorHash, Compare.errorEq] at ha hb ⊢
    · exact hi _ _ _ _
    · exact Compare.slice_told hi _ _ _ _

/-- `partial_cmp` gives up at the first pair of items which cannot be compared, unless items in front of it
differ: what comes later does not matter. -/
theorem C96_incomparable (ci : I → I → Option Ordering) (ct : T → T → Option Ordering)
    (ce : E → E → Option Ordering) (p p' s s' : List I) (c c' : I) (hp : Compare.slicePartial ci p p' = some .eq)
    (hc : ci c c' = none) (m : Mode) (t t' : T) (e e' : E) :
    Compare.slicePartial ci (p ++ c :: s) (p' ++ c' :: s') = none ∧
    Compare.resultPartial ci ct ce (.data ⟨m, p ++ c :: s⟩ t) (.data ⟨m, p' ++ c' :: s'⟩ t') = none ∧
    Compare.resultPartial ci ct ce (.error (p ++ c :: s) e) (.error (p' ++ c' :: s') e') = none ∧
    Compare.errorPartial ci (.string (p ++ c :: s)) (.string (p' ++ c' :: s')) = none := by
  have key : Compare.slicePartial ci (p ++ c :: s) (p' ++ c' :: s') = none := by
    induction p generalizing p' with
    | nil =>
      cases p' with
      | nil => simp [Compare.slicePartial, Compare.next, hc]
      | cons => simp [Compare.slicePartial] at hp
    | cons a p ih =>
      cases p' with
      | nil => simp [Compare.slicePartial] at hp
      | cons a' p' =>
        simp only [Compare.slicePartial, Compare.next] at hp
        split at hp
        · rename_i h
          simp [Compare.slicePartial, Compare.next, h, ih p' hp]
        · exact absurd hp (by assumption)
  refine ⟨key, ?_, ?_, key⟩
  · cases m <;> simp [Compare.resultPartial, Compare.inputPartial, key, Compare.next, Compare.number, Compare.bits]
  · simp [Compare.resultPartial, key, Compare.next]

/-- `partial_cmp` is `cmp` if that of items, values and errors is. -/
theorem C96_partial_cmp (ci : I → I → Ordering) (ct : T → T → Ordering) (ce : E → E → Ordering) :
    (∀ i j, Compare.inputPartial (fun a b => some (ci a b)) i j = some (Compare.input ci i j)) ∧
    (∀ r r', Compare.resultPartial (fun a b => some (ci a b)) (fun a b => some (ct a b))
      (fun a b => some (ce a b)) r r' = some (Compare.result ci ct ce r r')) ∧
    (∀ e f, Compare.errorPartial (fun a b => some (ci a b)) e f = some (Compare.error ci e f)) := by
  have hin : ∀ i j, Compare.inputPartial (fun a b => some (ci a b)) i j = some (Compare.input ci i j) := by
    intro i j
    simp only [Compare.inputPartial, Compare.slice_partial, Compare.next_some, Compare.input]
  refine ⟨hin, fun r r' => ?_, fun e f => ?_⟩
  · cases r <;> cases r' <;>
      simp only [Compare.resultPartial, Compare.result, hin, Compare.slice_partial, Compare.next_some]
  · cases e <;> cases f <;> simp only [Compare.errorPartial, Compare.error, Compare.slice_partial]

namespace CompareExample

/-- Bytes. -/
theorem bytes : TotalOrder (fun m n : Nat => m == n) Compare.number := Compare.number_ordered

/-- Words of letters compared without regard to case: an order which is not identity. -/
def fold (m n : Nat) : Ordering := Compare.number (m % 32) (n % 32)

theorem folded : TotalOrder (fun m n => m % 32 == n % 32) fold where
  same _ _ := bytes.same _ _
  swap _ _ := bytes.swap _ _
  trans _ _ _ := bytes.trans _ _ _

/-- Results with such items and such errors are ordered. -/
example : TotalOrder (Compare.resultEq (fun m n => m % 32 == n % 32) (fun m n : Nat => m == n)
      (Compare.errorEq fun m n => m % 32 == n % 32))
    (Compare.result fold Compare.number (Compare.error fold)) :=
  (C96_order folded bytes (C96_order folded bytes bytes).2.2).2.1

/-- `ab` and `AB` compare as equal, and `ab` comes before `Ac`. -/
example : Compare.slice fold [97, 98] [65, 66] = .eq ∧ Compare.slice fold [97, 98] [65, 99] = .lt := ⟨rfl, rfl⟩

/-- A value which is not equal to itself, as `NaN`: a result with it is not either, and is not comparable. -/
example : Compare.resultEq (fun m n : Nat => m == n) (fun _ _ : Unit => false) (fun _ _ : Unit => true)
      (.data ⟨.default, [1]⟩ ()) (.data ⟨.default, [1]⟩ ()) = false ∧
    Compare.resultPartial (fun m n : Nat => some (Compare.number m n)) (fun _ _ : Unit => none)
      (fun _ _ : Unit => none) (.data ⟨.default, [1]⟩ ()) (.data ⟨.default, [1]⟩ ()) = none ∧
    Compare.resultPartial (fun m n : Nat => some (Compare.number m n)) (fun _ _ : Unit => none)
      (fun _ _ : Unit => none) (.data ⟨.default, [1]⟩ ()) (.data ⟨.default, [2]⟩ ()) = some .lt :=
  ⟨rfl, rfl, rfl⟩

/-- Bytes are hashed as themselves. -/
example : Told (Compare.resultEq (fun m n : Nat => m == n) (fun m n : Nat => m == n) (fun m n : Nat => m == n))
    (Compare.resultHash (fun c => [c]) (fun c => [c]) (fun c => [c])) := by
  have h : Told (fun m n : Nat => m == n) (fun c => [c]) := by
    intro a b x y e
    simpa using e
  exact (C96_hash_tells h h h).2.1

/-- Two numbers which cannot be compared, after a pair which is equal. -/
example : Compare.slicePartial (fun m n : Nat => if m = 0 then none else some (Compare.number m n)) [1, 0, 3]
    [1, 2, 4] = none :=
  (C96_incomparable _ (fun _ _ : Unit => none) (fun _ _ : Unit => none) [1] [1] [3] [4] 0 2 rfl rfl .default () () ()
    ()).1

end CompareExample

end Chomp.Props
