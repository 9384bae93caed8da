import Verif.Lemmas.SizeHint

/-
C36, C37: what the target collection of a repetition sees (src/combinators/macros.rs,
src/combinators/bounded.rs). `Spec.Iterates` (calling `next` again and again) is defined in
Verif/Lemmas/SizeHint.lean. An iterator is given by its `next` function and its state; the size hint
is a function of the state.
-/

namespace Chomp.Props

open Spec Bounded

/-! ### C36 size_hint -/

/-- From no state of the iterators of `many` are more items yielded than their `size_hint` says. -/
theorem C36_upper_many (p : Parser σ I U E) (w w' : σ) (us : List U) (m : Nat) :
    (∀ it it', Iterates (iterNext hooksRange p) it w us it' w' →
      ((hooksRange (σ := σ)).sizeHint it.data).2 = some m → us.length ≤ m) ∧
    (∀ it it', Iterates (iterNext hooksTo p) it w us it' w' →
      ((hooksTo (σ := σ)).sizeHint it.data).2 = some m → us.length ≤ m) ∧
    (∀ it it', Iterates (iterNext hooksExactly p) it w us it' w' →
      ((hooksExactly (σ := σ)).sizeHint it.data).2 = some m → us.length ≤ m) ∧
    (∀ it it', Iterates (iterNext hooksFrom p) it w us it' w' →
      ((hooksFrom (σ := σ)).sizeHint it.data).2 = some m → us.length ≤ m) ∧
    (∀ it it', Iterates (iterNext hooksFull p) it w us it' w' →
      ((hooksFull (σ := σ)).sizeHint it.data).2 = some m → us.length ≤ m) :=
  ⟨fun _ _ h hm => (((Hint.countsRange p).iterates h).2 m hm).1,
   fun _ _ h hm => (((Hint.countsTo p).iterates h).2 m hm).1,
   fun _ _ h hm => (((Hint.countsExactly p).iterates h).2 m hm).1,
   fun _ _ _ hm => (by cases hm), fun _ _ _ hm => (by cases hm)⟩

/-- Likewise for `many_till`. -/
theorem C36_upper_many_till (p : Parser σ I U E) (end_ : Parser σ I V N) (w w' : σ) (us : List U)
    (m : Nat) :
    (∀ it it', Iterates (iterTillNext (hooksTillRange end_) p) it w us it' w' →
      ((hooksTillRange (I := I) (E := E) end_).sizeHint it.data).2 = some m → us.length ≤ m) ∧
    (∀ it it', Iterates (iterTillNext (hooksTillTo end_) p) it w us it' w' →
      ((hooksTillTo (I := I) (E := E) end_).sizeHint it.data).2 = some m → us.length ≤ m) ∧
    (∀ it it', Iterates (iterTillNext (hooksTillExactly end_) p) it w us it' w' →
      ((hooksTillExactly (I := I) (E := E) end_).sizeHint it.data).2 = some m → us.length ≤ m) ∧
    (∀ it it', Iterates (iterTillNext (hooksTillFrom end_) p) it w us it' w' →
      ((hooksTillFrom (I := I) (E := E) end_).sizeHint it.data).2 = some m → us.length ≤ m) ∧
    (∀ it it', Iterates (iterTillNext (hooksTillFull end_) p) it w us it' w' →
      ((hooksTillFull (I := I) (E := E) end_).sizeHint it.data).2 = some m → us.length ≤ m) :=
  ⟨fun _ _ h hm => (((Hint.countsTillRange p end_).iterates h).2 m hm).1,
   fun _ _ h hm => (((Hint.countsTillTo p end_).iterates h).2 m hm).1,
   fun _ _ h hm => (((Hint.countsTillExactly p end_).iterates h).2 m hm).1,
   fun _ _ _ hm => (by cases hm), fun _ _ _ hm => (by cases hm)⟩

/-- If the repetition succeeds with `vs`, then at any time, `us` having been yielded, at least as many
items follow as the lower bound of the `size_hint` says (and at most as many as the upper bound).
The iterator starts with the bounds of the range as its counters. -/
theorem C36_lower_range (a b : Nat) (p : Parser σ I U E) (i i' : Input I) (w w' w1 : σ)
    (us vs : List U) (it1 : Iter I E (Nat × Nat))
    (hs : Bounded.many (.range a b) (Collect.vec U) p i w = .ok (.data i' vs, w'))
    (h : Iterates (iterNext hooksRange p) ⟨.incomplete 1, i, (a, b - 1)⟩ w us it1 w1) :
    ∃ rest, vs = us ++ rest ∧ ((hooksRange (σ := σ)).sizeHint it1.data).1 ≤ rest.length ∧
      ∀ m, ((hooksRange (σ := σ)).sizeHint it1.data).2 = some m → rest.length ≤ m := by
  simp only [Bounded.many, Bounded.manyWith, manyRange] at hs
  split at hs
  · obtain ⟨⟨r, itE⟩, w2, h1, h2⟩ := M.bind_eq_ok.mp hs
    rw [Rep.maxOf_eq] at h1
    dsimp only [M.pure_apply] at h2
    have hE : r = vs ∧ itE.data.1 = 0 := by
      generalize itE.data = d at h2 ⊢
      generalize itE.state = st at h2
      obtain ⟨lo, hi⟩ := d
      cases lo <;> cases hi <;> cases st <;> simp [Input.ret, Input.err, Input.incomplete] at h2
      all_goals first
        | exact ⟨h2.1.2, rfl⟩
        | (split at h2 <;> simp at h2; exact ⟨h2.1.2, rfl⟩)
    obtain ⟨rfl, hE⟩ := hE
    exact (Hint.countsRange p).lower h1 hE h
  · cases hs

theorem C36_lower_from (n : Nat) (p : Parser σ I U E) (i i' : Input I) (w w' w1 : σ)
    (us vs : List U) (it1 : Iter I E Nat)
    (hs : Bounded.many (.from_ n) (Collect.vec U) p i w = .ok (.data i' vs, w'))
    (h : Iterates (iterNext hooksFrom p) ⟨.incomplete 1, i, n⟩ w us it1 w1) :
    ∃ rest, vs = us ++ rest ∧ ((hooksFrom (σ := σ)).sizeHint it1.data).1 ≤ rest.length := by
  obtain ⟨⟨r, itE⟩, w2, h1, h2⟩ := M.bind_eq_ok.mp hs
  dsimp only [M.pure_apply] at h2
  have hE : r = vs ∧ itE.data = 0 := by
    generalize itE.data = lo at h2 ⊢
    generalize itE.state = st at h2
    cases lo <;> cases st <;> simp [Input.ret, Input.err, Input.incomplete] at h2
    all_goals first
      | exact ⟨h2.1.2, rfl⟩
      | (split at h2 <;> simp at h2; exact ⟨h2.1.2, rfl⟩)
  obtain ⟨rfl, hE⟩ := hE
  obtain ⟨rest, h3, h4, _⟩ := (Hint.countsFrom p).lower h1 hE h
  exact ⟨rest, h3, h4⟩

theorem C36_lower_exactly (n : Nat) (p : Parser σ I U E) (i i' : Input I) (w w' w1 : σ)
    (us vs : List U) (it1 : Iter I E Nat)
    (hs : Bounded.many (.exactly n) (Collect.vec U) p i w = .ok (.data i' vs, w'))
    (h : Iterates (iterNext hooksExactly p) ⟨.incomplete 1, i, n⟩ w us it1 w1) :
    ∃ rest, vs = us ++ rest ∧ ((hooksExactly (σ := σ)).sizeHint it1.data).1 ≤ rest.length := by
  obtain ⟨⟨r, itE⟩, w2, h1, h2⟩ := M.bind_eq_ok.mp hs
  dsimp only [M.pure_apply] at h2
  have hE : r = vs ∧ itE.data = 0 := by
    generalize itE.data = lo at h2 ⊢
    generalize itE.state = st at h2
    cases lo <;> cases st <;> simp [Input.ret, Input.err, Input.incomplete] at h2
    all_goals exact ⟨h2.1.2, rfl⟩
  obtain ⟨rfl, hE⟩ := hE
  obtain ⟨rest, h3, h4, _⟩ := (Hint.countsExactly p).lower h1 hE h
  exact ⟨rest, h3, h4⟩

theorem C36_lower_till_range (a b : Nat) (p : Parser σ I U E) (end_ : Parser σ I V N)
    (i i' : Input I) (w w' w1 : σ) (us vs : List U) (it1 : IterTill I E (Nat × Nat))
    (hs : Bounded.manyTill (.range a b) (Collect.vec U) p end_ i w = .ok (.data i' vs, w'))
    (h : Iterates (iterTillNext (hooksTillRange end_) p) ⟨.incomplete 1, i, (a, b - 1)⟩ w us it1 w1) :
    ∃ rest, vs = us ++ rest ∧
      ((hooksTillRange (I := I) (E := E) end_).sizeHint it1.data).1 ≤ rest.length := by
  simp only [Bounded.manyTill, Bounded.manyTillWith, manyTillRange] at hs
  split at hs
  · obtain ⟨⟨r, itE⟩, w2, h1, h2⟩ := M.bind_eq_ok.mp hs
    rw [Rep.maxOf_eq] at h1
    dsimp only at h2
    have hE : r = vs ∧ itE.data.1 = 0 := by
      generalize itE.data = d at h2 ⊢
      generalize itE.state = st at h2
      obtain ⟨lo, hi⟩ := d
      cases lo <;> cases st <;> simp [Input.ret, Input.err, Input.incomplete] at h2
      exact ⟨h2.1.2, rfl⟩
    obtain ⟨rfl, hE⟩ := hE
    obtain ⟨rest, h3, h4, _⟩ := (Hint.countsTillRange p end_).lower h1 hE h
    exact ⟨rest, h3, h4⟩
  · cases hs

theorem C36_lower_till_from (n : Nat) (p : Parser σ I U E) (end_ : Parser σ I V N)
    (i i' : Input I) (w w' w1 : σ) (us vs : List U) (it1 : IterTill I E Nat)
    (hs : Bounded.manyTill (.from_ n) (Collect.vec U) p end_ i w = .ok (.data i' vs, w'))
    (h : Iterates (iterTillNext (hooksTillFrom end_) p) ⟨.incomplete 1, i, n⟩ w us it1 w1) :
    ∃ rest, vs = us ++ rest ∧
      ((hooksTillFrom (I := I) (E := E) end_).sizeHint it1.data).1 ≤ rest.length := by
  obtain ⟨⟨r, itE⟩, w2, h1, h2⟩ := M.bind_eq_ok.mp hs
  dsimp only at h2
  have hE : r = vs ∧ itE.data = 0 := by
    generalize itE.data = lo at h2 ⊢
    generalize itE.state = st at h2
    cases lo <;> cases st <;> simp [Input.ret, Input.err, Input.incomplete] at h2
    exact ⟨h2.1.2, rfl⟩
  obtain ⟨rfl, hE⟩ := hE
  obtain ⟨rest, h3, h4, _⟩ := (Hint.countsTillFrom p end_).lower h1 hE h
  exact ⟨rest, h3, h4⟩

theorem C36_lower_till_exactly (n : Nat) (p : Parser σ I U E) (end_ : Parser σ I V N)
    (i i' : Input I) (w w' w1 : σ) (us vs : List U) (it1 : IterTill I E Nat)
    (hs : Bounded.manyTill (.exactly n) (Collect.vec U) p end_ i w = .ok (.data i' vs, w'))
    (h : Iterates (iterTillNext (hooksTillExactly end_) p) ⟨.incomplete 1, i, n⟩ w us it1 w1) :
    ∃ rest, vs = us ++ rest ∧
      ((hooksTillExactly (I := I) (E := E) end_).sizeHint it1.data).1 ≤ rest.length := by
  obtain ⟨⟨r, itE⟩, w2, h1, h2⟩ := M.bind_eq_ok.mp hs
  dsimp only at h2
  have hE : r = vs ∧ itE.data = 0 := by
    generalize itE.data = lo at h2 ⊢
    generalize itE.state = st at h2
    cases lo <;> cases st <;> simp [Input.ret, Input.err, Input.incomplete] at h2
    exact ⟨h2.1.2, rfl⟩
  obtain ⟨rfl, hE⟩ := hE
  obtain ⟨rest, h3, h4, _⟩ := (Hint.countsTillExactly p end_).lower h1 hE h
  exact ⟨rest, h3, h4⟩

theorem C36_lower_full (p : Parser σ I U E) (i i' : Input I) (w w' w1 : σ)
    (us vs : List U) (it1 : Iter I E Unit)
    (hs : Bounded.many .full (Collect.vec U) p i w = .ok (.data i' vs, w'))
    (h : Iterates (iterNext hooksFull p) ⟨.incomplete 1, i, ()⟩ w us it1 w1) :
    ∃ rest, vs = us ++ rest ∧ ((hooksFull (σ := σ)).sizeHint it1.data).1 ≤ rest.length := by
  obtain ⟨⟨r, itE⟩, w2, h1, h2⟩ := M.bind_eq_ok.mp hs
  dsimp only [M.pure_apply] at h2
  have hE : r = vs := by
    generalize itE.state = st at h2
    cases st <;> simp [Input.ret, Input.incomplete] at h2
    · exact h2.1.2
    · split at h2 <;> simp at h2
      exact h2.1.2
  subst hE
  obtain ⟨rest, h3, h4, _⟩ := (Hint.countsFull p).lower h1 rfl h
  exact ⟨rest, h3, h4⟩

theorem C36_lower_to (n : Nat) (p : Parser σ I U E) (i i' : Input I) (w w' w1 : σ)
    (us vs : List U) (it1 : Iter I E Nat)
    (hs : Bounded.many (.to n) (Collect.vec U) p i w = .ok (.data i' vs, w'))
    (h : Iterates (iterNext hooksTo p) ⟨.incomplete 1, i, n - 1⟩ w us it1 w1) :
    ∃ rest, vs = us ++ rest ∧ ((hooksTo (σ := σ)).sizeHint it1.data).1 ≤ rest.length := by
  obtain ⟨⟨r, itE⟩, w2, h1, h2⟩ := M.bind_eq_ok.mp hs
  rw [Rep.maxOf_eq] at h1
  dsimp only [M.pure_apply] at h2
  have hE : r = vs := by
    generalize itE.data = d at h2
    generalize itE.state = st at h2
    cases d <;> cases st <;> simp [Input.ret, Input.incomplete] at h2
    all_goals first
      | exact h2.1.2
      | (split at h2 <;> simp at h2; exact h2.1.2)
  subst hE
  obtain ⟨rest, h3, h4, _⟩ := (Hint.countsTo p).lower h1 rfl h
  exact ⟨rest, h3, h4⟩

theorem C36_lower_till_full (p : Parser σ I U E) (end_ : Parser σ I V N)
    (i i' : Input I) (w w' w1 : σ) (us vs : List U) (it1 : IterTill I E Unit)
    (hs : Bounded.manyTill .full (Collect.vec U) p end_ i w = .ok (.data i' vs, w'))
    (h : Iterates (iterTillNext (hooksTillFull end_) p) ⟨.incomplete 1, i, ()⟩ w us it1 w1) :
    ∃ rest, vs = us ++ rest ∧
      ((hooksTillFull (I := I) (E := E) end_).sizeHint it1.data).1 ≤ rest.length := by
  obtain ⟨⟨r, itE⟩, w2, h1, h2⟩ := M.bind_eq_ok.mp hs
  dsimp only at h2
  have hE : r = vs := by
    generalize itE.state = st at h2
    cases st <;> simp [Input.ret, Input.err, Input.incomplete] at h2
    exact h2.1.2
  subst hE
  obtain ⟨rest, h3, h4, _⟩ := (Hint.countsTillFull p end_).lower h1 rfl h
  exact ⟨rest, h3, h4⟩

theorem C36_lower_till_to (n : Nat) (p : Parser σ I U E) (end_ : Parser σ I V N)
    (i i' : Input I) (w w' w1 : σ) (us vs : List U) (it1 : IterTill I E Nat)
    (hs : Bounded.manyTill (.to n) (Collect.vec U) p end_ i w = .ok (.data i' vs, w'))
    (h : Iterates (iterTillNext (hooksTillTo end_) p) ⟨.incomplete 1, i, n - 1⟩ w us it1 w1) :
    ∃ rest, vs = us ++ rest ∧
      ((hooksTillTo (I := I) (E := E) end_).sizeHint it1.data).1 ≤ rest.length := by
  obtain ⟨⟨r, itE⟩, w2, h1, h2⟩ := M.bind_eq_ok.mp hs
  rw [Rep.maxOf_eq] at h1
  dsimp only at h2
  have hE : r = vs := by
    generalize itE.data = d at h2
    generalize itE.state = st at h2
    cases d <;> cases st <;> simp [Input.ret, Input.err, Input.incomplete] at h2
    exact h2.1.2
  subst hE
  obtain ⟨rest, h3, h4, _⟩ := (Hint.countsTillTo p end_).lower h1 rfl h
  exact ⟨rest, h3, h4⟩

/-- The lower bound is wrong in general: for every n the iterator of `many(n.., any)` claims at least
n items and yields none if there is no input. -/
theorem C36_lower_bound_wrong (n : Nat) (m : Mode) (w : σ) :
    ((hooksFrom (σ := σ)).sizeHint
      (⟨.incomplete 1, ⟨m, ([] : List I)⟩, n⟩ : Iter I (Error I) Nat).data).1 = n ∧
    ∃ it', iterNext hooksFrom Parsers.any (⟨.incomplete 1, ⟨m, ([] : List I)⟩, n⟩ :
      Iter I (Error I) Nat) w = .ok ((none, it'), w) :=
  ⟨rfl, _, rfl⟩

/-- `many(1..4, any)` on two items: the hint of the fresh iterator is (1, 3), two items follow. -/
example : ∃ rest, ['a', 'b'] = [] ++ rest ∧
    ((hooksRange (σ := Unit)).sizeHint (1, 3)).1 ≤ rest.length ∧
    ∀ m, ((hooksRange (σ := Unit)).sizeHint (1, 3)).2 = some m → rest.length ≤ m :=
  C36_lower_range 1 4 (Parsers.any (σ := Unit)) ⟨.endOfInput, ['a', 'b']⟩ ⟨.endOfInput, []⟩ () () ()
    [] _ _
    (by
      rw [Rep.many_eq (by simp [Rep.ok])]
      exact Rep.core_vec_of_outcome (by intro m h; cases h; simp [Rep.min])
        (.stop_last (n := 1) (w' := ())
          (.cons (i1 := ⟨.endOfInput, ['b']⟩) (w1 := ()) rfl (.cons (w1 := ()) rfl .nil))
          (by intro m h; cases h; simp) rfl (by simp [Rep.min]) rfl))
    .nil

/-- `many(.., any)` on two items, one of which has been yielded. -/
example : ∃ rest, ['a', 'b'] = ['a'] ++ rest ∧ ((hooksFull (σ := Unit)).sizeHint ()).1 ≤ rest.length :=
  C36_lower_full (Parsers.any (σ := Unit)) ⟨.endOfInput, ['a', 'b']⟩ ⟨.endOfInput, []⟩ () () () ['a'] _ _
    (by
      rw [Rep.many_eq (by simp [Rep.ok])]
      exact Rep.core_vec_of_outcome (by intro m h; cases h)
        (.stop_last (n := 1) (w' := ())
          (.cons (i1 := ⟨.endOfInput, ['b']⟩) (w1 := ()) rfl (.cons (w1 := ()) rfl .nil))
          (by intro m h; cases h) rfl (by simp [Rep.min]) rfl))
    (.cons (it1 := ⟨.incomplete 1, ⟨.endOfInput, ['b']⟩, ()⟩) (w1 := ()) rfl .nil)

/-! ### C37 collections which stop early -/

/-- `StopsAfter c us t`: the collection pulls exactly the items `us` and then stops pulling, its
value being `t`. -/
def StopsAfter (c : Collect U T) (us : List U) (t : T) : Prop :=
  match c.start with
  | .inr t' => us = [] ∧ t' = t
  | .inl a => go a us
where
  go (a : c.Acc) : List U → Prop
    | [] => False
    | u :: us => match c.feed a u with
      | .inr t' => us = [] ∧ t' = t
      | .inl a' => go a' us

theorem stops_loop {c : Collect U T} {p : Parser σ I U E} {t : T} {i w us i' w'}
    (h : Reps p i w us i' w') : ∀ {a lo hi}, (∀ m, hi = some m → us.length ≤ m) →
    StopsAfter.go c t a us →
    loop (Rep.step c p) (a, i, lo, hi) w =
      .ok (Rep.final t i' (lo - us.length) (hi.map (· - us.length)) 1, w') := by
  induction h with
  | nil => intro a lo hi _ hs; exact hs.elim
  | cons h1 hrest ih =>
    rename_i i w i1 u w1 us i' w'
    intro a lo hi hm hs
    have hne : hi ≠ some 0 := fun e => by have := hm 0 e; simp at this
    rw [loop_apply]
    unfold StopsAfter.go at hs
    cases hf : c.feed a u with
    | inr t' =>
      rw [hf] at hs
      obtain ⟨rfl, rfl⟩ := hs
      cases hrest
      simp [Rep.step, hne, h1, hf]
    | inl a' =>
      rw [hf] at hs
      have hs' : Rep.step c p (a, i, lo, hi) w =
          .ok (.inl (a', i1, lo - 1, hi.map (· - 1)), w1) := by
        simp [Rep.step, hne, h1, hf]
      rw [hs']
      have := ih (a := a') (lo := lo - 1) (hi := hi.map (· - 1)) (by
        intro m he
        cases hi with
        | none => simp at he
        | some m' =>
          have := hm m' rfl
          simp at he this
          omega) hs
      have e1 : lo - (u :: us).length = lo - 1 - us.length := by simp; omega
      have e2 : hi.map (· - (u :: us).length) = (hi.map (· - 1)).map (· - us.length) := by
        cases hi with
        | none => rfl
        | some m => simp; omega
      rw [e1, e2]
      exact this

theorem stops_core {c : Collect U T} {p : Parser σ I U E} {t : T} {i w us i' w' lo hi}
    (h : Reps p i w us i' w') (hm : ∀ m, hi = some m → us.length ≤ m) (hs : StopsAfter c us t) :
    Rep.core c p lo hi i w =
      .ok (Rep.final t i' (lo - us.length) (hi.map (· - us.length)) 1, w') := by
  unfold StopsAfter at hs
  unfold Rep.core
  cases hc : c.start with
  | inr t' =>
    rw [hc] at hs
    obtain ⟨rfl, rfl⟩ := hs
    cases h
    cases hi <;> rfl
  | inl a =>
    rw [hc] at hs
    exact stops_loop h hm hs

/-- If the collection stops pulling after `us`, an unbounded `many` succeeds on the last slice, and
reports `Incomplete(1)` otherwise, although no application of `p` was incomplete. -/
theorem C37_many (c : Collect U T) (p : Parser σ I U E) (i i' : Input I) (w w' : σ)
    (us : List U) (t : T) (h : Reps p i w us i' w') (hs : StopsAfter c us t) :
    (i'.mode = .endOfInput → Comb.many c p i w = .ok (.data i' t, w')) ∧
    (i'.mode = .default → Comb.many c p i w = .ok (.incomplete 1, w')) := by
  unfold Comb.many
  rw [Rep.many_eq (by exact True.intro), stops_core h (by intro m h; cases h) hs]
  constructor
  · intro hm; simp [Rep.final, hm, Rep.min]
  · intro hm; simp [Rep.final, hm, Rep.min, Rep.max]

/-- If it stops before the n-th item, `count(n, p)` reports `Incomplete(1)`, even on the last
slice. -/
theorem C37_count (n : Nat) (c : Collect U T) (p : Parser σ I U E) (i i' : Input I) (w w' : σ)
    (us : List U) (t : T) (h : Reps p i w us i' w') (hs : StopsAfter c us t) (hl : us.length < n) :
    Comb.count n c p i w = .ok (.incomplete 1, w') := by
  unfold Comb.count
  rw [Rep.many_eq (by exact True.intro),
    stops_core h (by intro m h; cases h; exact Nat.le_of_lt hl) hs]
  simp [Rep.final, Rep.min]
  omega

/-- Likewise with a lower limit which is not reached. -/
theorem C37_at_least (n : Nat) (c : Collect U T) (p : Parser σ I U E) (i i' : Input I) (w w' : σ)
    (us : List U) (t : T) (h : Reps p i w us i' w') (hs : StopsAfter c us t) (hl : us.length < n) :
    Bounded.many (.from_ n) c p i w = .ok (.incomplete 1, w') := by
  rw [Rep.many_eq (by exact True.intro), stops_core h (by intro m h; cases h) hs]
  simp [Rep.final, Rep.min]
  omega

/-- The collection `Option<Vec<_>>` stops after the first `None`. -/
theorem C37_option_stops (us : List U) :
    StopsAfter (Collect.optionVec U) (us.map some ++ [none]) none := by
  show StopsAfter.go (Collect.optionVec U) none ([] : List U) (us.map some ++ [none])
  have : ∀ (us acc : List U), StopsAfter.go (Collect.optionVec U) none acc (us.map some ++ [none]) := by
    intro us
    induction us with
    | nil => intro acc; exact ⟨rfl, rfl⟩
    | cons u us ih => intro acc; exact ih (u :: acc)
  exact this us []

/-- `p` reads one item, yielding `None` for a dot. On ".x", collecting into an `Option`, `many` asks
for more input after the dot. -/
example : Comb.many (Collect.optionVec Char)
    (Parser.map (Parsers.any (σ := Unit)) (fun c => if c = '.' then none else some c))
    ⟨.default, ['a', '.', 'x']⟩ () = .ok (.incomplete 1, ()) :=
  (C37_many (Collect.optionVec Char) _ _ ⟨.default, ['x']⟩ _ _ [some 'a', none] none
    (.cons (i1 := ⟨.default, ['.', 'x']⟩) (w1 := ()) rfl (.cons (w1 := ()) rfl .nil))
    (C37_option_stops ['a'])).2 rfl

end Chomp.Props
