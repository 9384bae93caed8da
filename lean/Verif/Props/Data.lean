import Verif.Lemmas.Script
import Verif.Model.Stream

/-
C58: `IteratorDataSource`. C59: `StreamError`.
-/

namespace Chomp

/-- `Yields j xs j'`: taking `xs.length` items from the iterator `j` yields `some` of each of `xs`,
in order, and leaves `j'`. -/
inductive Spec.Yields [Iter J I] : J → List I → J → Prop
  | done {j} : Yields j [] j
  | step {j x j1 xs j2} : Iter.next j = (some x, j1) → Yields j1 xs j2 → Yields j (x :: xs) j2

namespace Props

open Spec

/-! ### C58 -/

private theorem iterRead_spec [Iter J I] (k : Nat) (j : J) :
    ((iterRead k j).1.length = k ∧ Yields j (iterRead k j).1 (iterRead k j).2) ∨
    ((iterRead k j).1.length < k ∧ ∃ j1, Yields j (iterRead k j).1 j1 ∧
      Iter.next j1 = (none, (iterRead k j).2)) := by
  induction k generalizing j with
  | zero => exact .inl ⟨rfl, .done⟩
  | succ k ih =>
    match h : Iter.next j with
    | (some x, j') =>
      have e : iterRead (k + 1) j = (x :: (iterRead k j').1, (iterRead k j').2) := by
        simp only [iterRead, h]
      rw [e]
      rcases ih j' with ⟨h1, h2⟩ | ⟨h1, j1, h2, h3⟩
      · exact .inl ⟨by simp [h1], .step h h2⟩
      · exact .inr ⟨by simp [h1], j1, .step h h2, h3⟩
    | (none, j') =>
      have e : iterRead (k + 1) j = ([], j') := by simp only [iterRead, h]
      rw [e]
      exact .inr ⟨by simp, j, .done, h⟩

/-- `read` never fails. It delivers the items the iterator yields, in order, and takes no item it does
not deliver: either as many as fit, or it has stopped where the iterator yielded `None`. It writes
nothing beyond the items delivered. -/
theorem C58_read [Iter J I] (s : IteratorDataSource J) (k : Nat) :
    ∃ xs, (DataSource.read s k).1.result = .ok xs.length ∧
      (DataSource.read s k).1.writes = xs.map some ∧ (DataSource.read s k).1.items = xs ∧
      ((xs.length = k ∧ Yields s.inner xs (DataSource.read s k).2.inner) ∨
       (xs.length < k ∧ ∃ j, Yields s.inner xs j ∧
         Iter.next j = (none, (DataSource.read s k).2.inner))) := by
  refine ⟨(iterRead k s.inner).1, rfl, rfl, ?_, iterRead_spec k s.inner⟩
  show (((iterRead k s.inner).1.map some).take (iterRead k s.inner).1.length).filterMap id = _
  rw [List.take_of_length_le (by simp)]
  simp

/-- So it honours the contract of `DataSource`, whatever the iterator does. -/
instance [Iter J I] : HonestSource (IteratorDataSource J) I where
  honest s k n h := by
    obtain ⟨xs, h1, _, h3, h4⟩ := C58_read s k
    rw [h1] at h
    simp only [Except.ok.injEq] at h
    rw [h3]
    rcases h4 with ⟨h4, _⟩ | ⟨h4, _⟩ <;> omega

/-- `Yields` describes a unique run. -/
theorem Yields.unique [Iter J I] {j : J} {xs ys j1 j2} (h : Yields j xs j1) (h' : Yields j ys j2)
    (hl : xs.length = ys.length) : xs = ys ∧ j1 = j2 := by
  induction h generalizing ys with
  | done =>
    cases h' with
    | done => exact ⟨rfl, rfl⟩
    | step => simp at hl
  | step h1 _ ih =>
    cases h' with
    | done => simp at hl
    | step h2 h3 =>
      rw [h1] at h2
      cases h2
      obtain ⟨rfl, rfl⟩ := ih h3 (by simpa using hl)
      exact ⟨rfl, rfl⟩

/-- Reading from a list's iterator, in whatever portions, delivers the list. -/
instance listIter : Iter (List I) I where
  next
    | [] => (none, [])
    | x :: xs => (some x, xs)

theorem C58_list (I : Type) :
    Delivers (IteratorDataSource (List I)) (fun s => s.inner) (fun _ => 0) where
  ok s k n h := by
    obtain ⟨xs, h1, _, h3, h4⟩ := C58_read s k
    rw [h1] at h
    simp only [Except.ok.injEq] at h
    have key : ∀ (j : List I) xs j', Yields j xs j' → j = xs ++ j' := by
      intro j xs j' hy
      induction hy with
      | done => rfl
      | @step j x j1 xs j2 h _ ih =>
        match j, h with
        | y :: ys, h => cases h; rw [ih]; rfl
    have nil : ∀ j j' : List I, Iter.next j = (none, j') → j = [] ∧ j' = [] := by
      intro j j' h
      match j, h with
      | [], h => cases h; exact ⟨rfl, rfl⟩
    rw [h3]
    rcases h4 with ⟨g1, g2⟩ | ⟨g1, j, g2, g3⟩
    · refine ⟨key _ _ _ g2, Nat.le_refl _, fun hk _ => ?_⟩
      omega
    · obtain ⟨rfl, g4⟩ := nil _ _ g3
      refine ⟨(key _ _ _ g2).trans (by rw [g4]), Nat.le_refl _, fun hk hr => ?_⟩
      have := key _ _ _ g2
      rw [List.append_nil] at this
      rw [this] at hr
      have := List.length_pos_iff.mpr hr
      omega
  err s k e h := by
    obtain ⟨xs, h1, _⟩ := C58_read s k
    rw [h1] at h
    cases h

example : ∃ xs, (DataSource.read (⟨['a', 'b', 'c']⟩ : IteratorDataSource (List Char)) 2).1.items = xs ∧
    xs.length = 2 ∧ xs = ['a', 'b'] := ⟨_, rfl, rfl, rfl⟩

/-! ### C59 -/

section
variable {I E : Type} [BEq I] [BEq E] [LawfulBEq I] [LawfulBEq E]

/-- Equality means: the same, and not an `IoError`. -/
theorem C59_eq (x y : StreamError I E) :
    x.eq y = true ↔ x = y ∧ ∀ e, x ≠ .ioError e := by
  cases x <;> cases y <;> simp [StreamError.eq]

/-- It is symmetric. -/
theorem C59_symm (x y : StreamError I E) : x.eq y = y.eq x := by
  rw [Bool.eq_iff_iff, C59_eq, C59_eq]
  constructor <;> rintro ⟨rfl, h⟩ <;> exact ⟨rfl, h⟩

/-- It is transitive. -/
theorem C59_trans (x y z : StreamError I E) (h1 : x.eq y = true) (h2 : y.eq z = true) :
    x.eq z = true := by
  rw [C59_eq] at *
  exact ⟨h1.1.trans h2.1, h1.2⟩

/-- It is reflexive except on `IoError`. -/
theorem C59_refl (x : StreamError I E) : x.eq x = true ↔ ∀ e, x ≠ .ioError e := by
  rw [C59_eq]; simp

omit [LawfulBEq I] [LawfulBEq E] in
/-- Which equals nothing. -/
theorem C59_io (e : IoError) (x : StreamError I E) :
    (StreamError.ioError e).eq x = false ∧ x.eq (.ioError e) = false := by
  cases x <;> exact ⟨rfl, rfl⟩

end

/-- Conversion from `ParseError` keeps all information. -/
theorem C59_injective (x y : ParseError I E)
    (h : StreamError.ofParseError x = StreamError.ofParseError y) : x = y := by
  cases x <;> cases y <;> simp_all [StreamError.ofParseError]

/-- Exactly `ParseError` and `Incomplete` are produced. -/
theorem C59_range (y : StreamError I E) :
    (∃ x, StreamError.ofParseError x = y) ↔
      (∀ e, y ≠ .ioError e) ∧ y ≠ .endOfInput ∧ y ≠ .retry := by
  constructor
  · rintro ⟨x, rfl⟩
    cases x <;> simp [StreamError.ofParseError]
  · rintro ⟨h1, h2, h3⟩
    cases y with
    | parseError b e => exact ⟨.error b e, rfl⟩
    | incomplete n => exact ⟨.incomplete n, rfl⟩
    | ioError e => exact absurd rfl (h1 e)
    | endOfInput => exact absurd rfl h2
    | retry => exact absurd rfl h3

/-- With the data carried along unchanged. -/
theorem C59_values (b : List I) (e : E) (n : Nat) :
    StreamError.ofParseError (.error b e) = .parseError b e ∧
    StreamError.ofParseError (.incomplete n : ParseError I E) = .incomplete n := ⟨rfl, rfl⟩

example : (StreamError.parseError [1, 2] 'e').eq (.parseError [1, 2] 'e') = true :=
  (C59_refl _).mpr (by intro e; simp)
example : (StreamError.incomplete 3 : StreamError Nat Char).eq (.incomplete 4) = false := rfl

end Props

end Chomp
