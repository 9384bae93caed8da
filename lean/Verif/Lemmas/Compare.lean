import Verif.Model.Compare
import Verif.Spec.Compare

namespace Chomp.Compare
open Spec

theorem then_eq (o p : Ordering) : o.then p = .eq ↔ o = .eq ∧ p = .eq := by
  cases o <;> cases p <;> decide

theorem then_gt (o p : Ordering) : o.then p ≠ .gt ↔ o = .lt ∨ o = .eq ∧ p ≠ .gt := by
  cases o <;> cases p <;> decide

theorem then_swap (o p : Ordering) : (o.then p).swap = o.swap.then p.swap := by
  cases o <;> cases p <;> decide

theorem le_cases {o : Ordering} (h : o ≠ .gt) : o = .lt ∨ o = .eq := by
  cases o <;> simp_all

/-- One step of a lexicographic order. -/
theorem then_trans {eq : A → A → Bool} {cmp : A → A → Ordering} (h : TotalOrder eq cmp) {a b c : A}
    {p q r : Ordering} (ht : p ≠ .gt → q ≠ .gt → r ≠ .gt)
    (h1 : (cmp a b).then p ≠ .gt) (h2 : (cmp b c).then q ≠ .gt) : (cmp a c).then r ≠ .gt := by
  rw [then_gt] at *
  have hab : cmp a b ≠ .gt := by rcases h1 with h1 | h1 <;> simp [h1]
  have hbc : cmp b c ≠ .gt := by rcases h2 with h2 | h2 <;> simp [h2]
  have hac := h.trans a b c hab hbc
  rcases le_cases hac with hl | he
  · exact Or.inl hl
  · refine Or.inr ⟨he, ?_⟩
    have hca : cmp c a ≠ .gt := by rw [h.swap a c, he]; decide
    have hba := h.trans b c a hbc hca
    have hcb := h.trans c a b hca hab
    have e1 : cmp a b = .eq := by
      rw [h.swap a b] at hba
      revert hab hba; cases cmp a b <;> decide
    have e2 : cmp b c = .eq := by
      rw [h.swap b c] at hcb
      revert hbc hcb; cases cmp b c <;> decide
    rw [e1] at h1
    rw [e2] at h2
    exact ht (by simpa using h1) (by simpa using h2)

theorem ordered_equal {eq : A → A → Bool} {cmp : A → A → Ordering} (h : TotalOrder eq cmp) : Equal eq where
  refl a := by
    rw [← h.same]
    have := h.swap a a
    revert this; cases cmp a a <;> decide
  symm a b hab := by
    rw [← h.same] at *
    rw [h.swap a b, hab]; rfl
  trans a b c hab hbc := by
    rw [← h.same] at *
    have h1 := h.trans a b c (by rw [hab]; decide) (by rw [hbc]; decide)
    have h2 := h.trans c b a (by rw [h.swap b c, hbc]; decide) (by rw [h.swap a b, hab]; decide)
    rw [h.swap a c] at h2
    revert h1 h2; cases cmp a c <;> decide

theorem number_ordered : TotalOrder (fun m n : Nat => m == n) number where
  same a b := by simp [number]
  swap a b := by simp [number, Nat.compare_swap]
  trans a b c := by
    simp only [number, ne_eq, Nat.compare_eq_gt]; omega

theorem bits_inj {m n : Mode} (h : bits m = bits n) : m = n := by
  cases m <;> cases n <;> simp_all [bits]

theorem slice_ordered {eq : I → I → Bool} {ci : I → I → Ordering} (h : TotalOrder eq ci) :
    TotalOrder (sliceEq eq) (slice ci) where
  same a := by
    induction a with
    | nil => intro b; cases b <;> simp [slice, sliceEq]
    | cons c s ih =>
      intro b
      cases b with
      | nil => simp [slice, sliceEq]
      | cons d t => simp [slice, sliceEq, h.same, ih]
  swap a := by
    induction a with
    | nil => intro b; cases b <;> rfl
    | cons c s ih =>
      intro b
      cases b with
      | nil => rfl
      | cons d t => simp only [slice, then_swap, h.swap c d, ih]
  trans a := by
    induction a with
    | nil => intro b c; cases b <;> cases c <;> simp [slice]
    | cons x s ih =>
      intro b c
      cases b with
      | nil => cases c <;> simp [slice]
      | cons y t =>
        cases c with
        | nil => simp [slice]
        | cons z u => exact fun h1 h2 => then_trans h (ih t u) h1 h2

theorem input_ordered {eq : I → I → Bool} {ci : I → I → Ordering} (h : TotalOrder eq ci) :
    TotalOrder (inputEq eq) (input ci) where
  same a b := by simp [input, inputEq, (slice_ordered h).same, number_ordered.same]
  swap a b := by
    simp only [input, then_swap, number_ordered.swap (bits a.mode), (slice_ordered h).swap a.buf]
  trans a b c h1 h2 := then_trans number_ordered ((slice_ordered h).trans _ _ _) h1 h2

theorem result_ordered {eq : I → I → Bool} {ci : I → I → Ordering} {eqt : T → T → Bool} {ct : T → T → Ordering}
    {eqe : E → E → Bool} {ce : E → E → Ordering} (hi : TotalOrder eq ci) (ht : TotalOrder eqt ct)
    (he : TotalOrder eqe ce) : TotalOrder (resultEq eq eqt eqe) (result ci ct ce) where
  same a b := by
    cases a <;> cases b <;> simp [result, resultEq, (input_ordered hi).same, (slice_ordered hi).same,
      ht.same, he.same, number_ordered.same]
  swap a b := by
    cases a <;> cases b <;> try rfl
    · simp only [result, then_swap]
      rename_i i t j u
      rw [(input_ordered hi).swap i j, ht.swap t u]
    · simp only [result, then_swap]
      rename_i i t j u
      rw [(slice_ordered hi).swap i j, he.swap t u]
    · exact number_ordered.swap _ _
  trans a b c h1 h2 := by
    cases a <;> cases b <;> cases c <;> simp only [result, ne_eq, reduceCtorEq, not_false_eq_true, not_true] at * 
    · exact then_trans (input_ordered hi) (ht.trans _ _ _) h1 h2
    · exact then_trans (slice_ordered hi) (he.trans _ _ _) h1 h2
    · exact number_ordered.trans _ _ _ h1 h2

theorem error_ordered {eq : I → I → Bool} {ci : I → I → Ordering} (h : TotalOrder eq ci) :
    TotalOrder (errorEq eq) (error ci) where
  same a b := by
    cases a <;> cases b <;> simp [error, errorEq, h.same, (slice_ordered h).same, number_ordered.same, index]
  swap a b := by
    cases a <;> cases b <;> try rfl
    · exact h.swap _ _
    · exact (slice_ordered h).swap _ _
  trans a b c h1 h2 := by
    cases a <;> cases b <;> cases c <;> first
      | exact h.trans _ _ _ h1 h2
      | exact (slice_ordered h).trans _ _ _ h1 h2
      | exact absurd rfl h1
      | exact absurd rfl h2
      | exact fun hn => nomatch hn

theorem slice_equal {eq : I → I → Bool} (h : Equal eq) : Equal (sliceEq eq) where
  refl a := by induction a <;> simp_all [sliceEq, h.refl]
  symm a := by
    induction a with
    | nil => intro b; cases b <;> simp [sliceEq]
    | cons c s ih =>
      intro b
      cases b with
      | nil => simp [sliceEq]
      | cons d t =>
        simp only [sliceEq, Bool.and_eq_true]
        exact fun ⟨h1, h2⟩ => ⟨h.symm _ _ h1, ih _ h2⟩
  trans a := by
    induction a with
    | nil => intro b c; cases b <;> cases c <;> simp [sliceEq]
    | cons x s ih =>
      intro b c
      cases b with
      | nil => simp [sliceEq]
      | cons y t =>
        cases c with
        | nil => simp [sliceEq]
        | cons z u =>
          simp only [sliceEq, Bool.and_eq_true]
          exact fun ⟨h1, h2⟩ ⟨h3, h4⟩ => ⟨h.trans _ _ _ h1 h3, ih _ _ h2 h4⟩

theorem slice_identity {eq : I → I → Bool} (h : Identity eq) : Identity (sliceEq eq) := by
  intro a
  induction a with
  | nil => intro b; cases b <;> simp [sliceEq]
  | cons c s ih =>
    intro b
    cases b with
    | nil => simp [sliceEq]
    | cons d t => simp [sliceEq, h c d, ih]

theorem input_identity {eq : I → I → Bool} (h : Identity eq) : Identity (inputEq eq) := by
  rintro ⟨m, s⟩ ⟨n, t⟩
  simp only [inputEq, Bool.and_eq_true, beq_iff_eq, slice_identity h s t, Input.mk.injEq]
  exact ⟨fun ⟨a, b⟩ => ⟨bits_inj a, b⟩, fun ⟨a, b⟩ => ⟨congrArg _ a, b⟩⟩

theorem slice_hashed {eq : I → I → Bool} {f : I → Feed} (h : Hashed eq f) : Hashed (sliceEq eq) (sliceHash f) := by
  intro a
  suffices ∀ b, sliceEq eq a b = true → a.length = b.length ∧ a.flatMap f = b.flatMap f by
    intro b hb
    simp [sliceHash, this b hb]
  induction a with
  | nil => intro b; cases b <;> simp [sliceEq]
  | cons c s ih =>
    intro b
    cases b with
    | nil => simp [sliceEq]
    | cons d t =>
      simp only [sliceEq, Bool.and_eq_true]
      intro ⟨h1, h2⟩
      simp [ih t h2, h c d h1]

theorem input_hashed {eq : I → I → Bool} {f : I → Feed} (h : Hashed eq f) : Hashed (inputEq eq) (inputHash f) := by
  intro a b hab
  simp only [inputEq, Bool.and_eq_true, beq_iff_eq] at hab
  simp [inputHash, hab.1, slice_hashed h _ _ hab.2]

theorem slice_told {eq : I → I → Bool} {f : I → Feed} (h : Told eq f) : Told (sliceEq eq) (sliceHash f) := by
  intro a
  suffices ∀ b x y, a.length = b.length → a.flatMap f ++ x = b.flatMap f ++ y → sliceEq eq a b = true ∧ x = y by
    intro b x y hb
    simp only [sliceHash, List.cons_append, List.cons.injEq] at hb
    exact this b x y hb.1 hb.2
  induction a with
  | nil =>
    intro b x y hl
    cases b with
    | nil => simp [sliceEq]
    | cons => simp at hl
  | cons c s ih =>
    intro b x y hl
    cases b with
    | nil => simp at hl
    | cons d t =>
      simp only [List.flatMap_cons, List.append_assoc, sliceEq, Bool.and_eq_true]
      intro e
      obtain ⟨e1, e2⟩ := h c d _ _ e
      obtain ⟨e3, e4⟩ := ih t x y (by simpa using hl) e2
      exact ⟨⟨e1, e3⟩, e4⟩

theorem input_told {eq : I → I → Bool} {f : I → Feed} (h : Told eq f) : Told (inputEq eq) (inputHash f) := by
  intro a b x y e
  simp only [inputHash, List.cons_append, List.cons.injEq] at e
  obtain ⟨e1, e2⟩ := slice_told h _ _ _ _ e.2
  exact ⟨by simp [inputEq, e.1, e1], e2⟩

theorem slice_partial (ci : I → I → Ordering) (s t : List I) :
    slicePartial (fun a b => some (ci a b)) s t = some (slice ci s t) := by
  induction s generalizing t with
  | nil => cases t <;> rfl
  | cons c s ih =>
    cases t with
    | nil => rfl
    | cons d t =>
      simp only [slicePartial, slice, ih, next]
      cases ci c d <;> rfl

theorem next_some (o p : Ordering) : next (some o) (some p) = some (o.then p) := by
  cases o <;> rfl

end Chomp.Compare
