import Verif.Lemmas.Terminate
import Verif.Spec.Productive

/-
C30, continued: termination of every repeating combinator, with any collection.
-/

namespace Chomp.Props

open Spec

/-- `many`, any range and any collection. -/
theorem C30_many (r : Bounded.Range) (c : Collect U T) (p : Parser σ I U E) (hp : Returns p)
    (h : Consumes p ∨ HasLimit r) : Returns (Bounded.many r c p) := by
  intro i w
  by_cases hr : Rep.ok r
  · rw [Rep.many_eq hr]
    refine Rep.core_terminates hp c _ _ (h.imp id ?_) i w
    intro hl; cases r <;> simp_all [HasLimit, Rep.max]
  · cases r with
    | range a b =>
      have h' : ¬ a ≤ b := hr
      simp [Bounded.many, Bounded.manyWith, Bounded.manyRange, h']
    | _ => exact absurd True.intro hr

/-- `skip_many`, any range. -/
theorem C30_skip_many (r : Bounded.Range) (p : Parser σ I U E) (hp : Returns p)
    (h : Consumes p ∨ HasLimit r) : Returns (Bounded.skipMany r p) := by
  intro i w
  by_cases hr : Rep.skipOk r
  · rw [Rep.skipMany_eq hr]
    refine Rep.core_terminates hp _ _ _ (h.imp id ?_) i w
    intro hl; cases r <;> simp_all [HasLimit, Rep.max]
  · cases r with
    | range a b =>
      by_cases h' : a ≤ b
      · show Bounded.skipManyRange a b p i w ≠ .div
        rw [Rep.skipManyRange_eq h']; exact Rep.skip_terminates hp _ _ _ _ _
      · simp [Bounded.skipMany, Bounded.skipManyRange, h']
    | exactly n =>
      show Bounded.skipManyExactly n p i w ≠ .div
      rw [Rep.skipManyExactly_loop]; exact Rep.skip_terminates hp _ _ _ _ _
    | _ => exact absurd True.intro hr

/-- `many_till`, any range and any collection. -/
theorem C30_many_till (r : Bounded.Range) (c : Collect U T) (p : Parser σ I U E)
    (end_ : Parser σ I V N) (hp : Returns p) (he : Returns end_) (h : Consumes p ∨ HasLimit r) :
    Returns (Bounded.manyTill r c p end_) := by
  intro i w
  rcases Till.manyTill_shapes r c p end_ with ⟨_, h'⟩ | ⟨_, h'⟩
  · rw [h']
    refine Till.core_terminates hp he c _ _ _ _ (h.imp id ?_) i w
    intro hl; cases r <;> simp_all [HasLimit, Rep.max]
  · rw [h']; simp

theorem sepParser_returns (conv : N → E) (p : Parser σ I U E) (sep : Parser σ I V N)
    (hp : Returns p) (hs : Returns sep) : Returns (Comb.sepParser conv p sep) := by
  rintro i ⟨w, f⟩
  rw [Sep.sepParser_eq, Ne, Sep.flag_crash.2.2]
  cases f with
  | false => exact hp i w
  | true =>
    simp only [if_true, sepThen]
    match h : sep i w with
    | .ok (.data b v, w1) => exact hp b w1
    | .ok (.error b e, w1) => simp
    | .ok (.incomplete n, w1) => simp
    | .panic => simp
    | .ub => simp
    | .div => exact absurd h (hs i w)

/-- The separator is used from the second item on. -/
theorem sepParser_decreases (conv : N → E) (p : Parser σ I U E) (sep : Parser σ I V N)
    (hp : ∀ i w i' u w', p i w = .ok (.data i' u, w') → i'.buf.length ≤ i.buf.length)
    (hs : ∀ i w i' v w', sep i w = .ok (.data i' v, w') → i'.buf.length ≤ i.buf.length)
    (h : Consumes p ∨ Consumes sep) (i : Input I) (w : σ × Bool) (i' u w')
    (hr : Comb.sepParser conv p sep i w = .ok (.data i' u, w')) :
    i'.buf.length + (!w'.2).toNat < i.buf.length + (!w.2).toNat := by
  obtain ⟨w, f⟩ := w
  obtain ⟨w', f'⟩ := w'
  rw [Sep.sepParser_eq, Sep.flag_data] at hr
  obtain ⟨hr, rfl⟩ := hr
  cases f with
  | false =>
    have := hp _ _ _ _ _ hr
    simp
    omega
  | true =>
    simp only [if_true, sepThen] at hr
    match h1 : sep i w, hr with
    | .ok (.data b v, w1), hr =>
      have h2 := hp _ _ _ _ _ hr
      have h3 := hs _ _ _ _ _ h1
      have h4 : i'.buf.length < b.buf.length ∨ b.buf.length < i.buf.length :=
        h.imp (fun h => h _ _ _ _ _ hr) fun h => h _ _ _ _ _ h1
      simp
      omega

/-- `sep_by` and `sep_by1`, any collection: it suffices that the items consume, or the separators do. (No
parser lengthens the slice, C05.) -/
theorem C30_sep_by (conv : N → E) (c : Collect U T) (p : Parser σ I U E) (sep : Parser σ I V N)
    (hp : Returns p) (hs : Returns sep) (hc : Consumes p ∨ Consumes sep)
    (hk : ∀ i w i' u w', p i w = .ok (.data i' u, w') → i'.buf.length ≤ i.buf.length)
    (hl : ∀ i w i' v w', sep i w = .ok (.data i' v, w') → i'.buf.length ≤ i.buf.length) :
    Returns (Comb.sepBy conv c p sep) ∧ Returns (Comb.sepBy1 conv c p sep) := by
  have h1 := sepParser_returns conv p sep hp hs
  have h2 := sepParser_decreases conv p sep hk hl hc
  have key : ∀ (x : M (σ × Bool) (ParseResult I T E)) w, x (w, false) ≠ .div →
      Comb.newLocal false x w ≠ .div := by
    intro x w h
    rw [Sep.newLocal_eq]
    match hx : x (w, false) with
    | .ok _ => simp [Sep.unflag]
    | .panic => simp [Sep.unflag]
    | .ub => simp [Sep.unflag]
    | .div => exact absurd hx h
  constructor
  · intro i w
    refine key _ w ?_
    rw [Rep.many_eq (by exact True.intro)]
    exact Rep.core_decreases h1 c _ _ _ h2 i _
  · intro i w
    refine key _ w ?_
    rw [Rep.many_eq (by exact True.intro)]
    exact Rep.core_decreases h1 c _ _ _ h2 i _

theorem any_returns : Returns (Parsers.any (σ := σ) (I := I)) := by
  intro i w; rw [Parsers.any_eq]; simp

theorem any_consumes : Consumes (Parsers.any (σ := σ) (I := I)) := by
  intro ⟨m, b⟩ w i' u w' h
  rw [Parsers.any_eq] at h
  cases b with
  | nil => simp at h
  | cons c r => cases h; simp

example : Returns (Comb.manyTill (Collect.vec Char) (Parsers.any (σ := Unit)) (Parsers.eof true)) :=
  C30_many_till .full _ _ _ any_returns (by intro i w; rw [Parsers.eof_eq]; simp)
    (.inl any_consumes)

/-- With a limit the parser need not consume. -/
example : Returns (Bounded.skipMany (.range 2 7) (Parsers.peek (σ := Unit) (I := Char))) :=
  C30_skip_many _ _ (by intro i w; rw [Parsers.peek_eq]; simp) (.inr True.intro)

example : Returns (Comb.sepBy id (Collect.optionVec Char)
    (Parser.map (Parsers.any (σ := Unit)) (fun c => if c = 'x' then none else some c))
    (Parser.ret ())) := by
  have hc : Consumes (Parser.map (Parsers.any (σ := Unit)) (fun c => if c = 'x' then none else some c)) := by
    intro ⟨m, b⟩ w i' u w' h
    unfold Parser.map at h
    rw [M.bind_ok (Parsers.any_eq _ w)] at h
    cases b with
    | nil => simp [ParseResult.map] at h
    | cons c r => cases h; simp
  refine (C30_sep_by _ _ _ _ ?_ ?_ (.inl hc) (fun i w i' u w' h => Nat.le_of_lt (hc i w i' u w' h)) ?_).1
  · intro i w
    unfold Parser.map
    rw [M.bind_ok (Parsers.any_eq i w)]
    obtain ⟨m, b⟩ := i
    cases b <;> simp [ParseResult.map]
  · intro i w; simp [Parser.ret]
  · intro i w i' v w' h
    cases h; exact Nat.le_refl _

/-- Items which do not consume: the number of items is one more than the number of separators. -/
example : Returns (Comb.sepBy id (Collect.vec Unit) (Parser.ret ()) (Parsers.any (σ := Unit) (I := Char))) := by
  refine (C30_sep_by _ _ _ _ ?_ any_returns (.inr any_consumes) ?_
    (fun i w i' u w' h => Nat.le_of_lt (any_consumes i w i' u w' h))).1
  · intro i w; simp [Parser.ret]
  · intro i w i' v w' h
    cases h; exact Nat.le_refl _

end Chomp.Props
