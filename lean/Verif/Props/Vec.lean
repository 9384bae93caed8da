import Verif.Lemmas.Vec

/-
C73: repetitions collecting into a `Vec` with little memory, and into any collection
(src/combinators/bounded.rs, src/combinators/macros.rs). `least`, `most`, `Fine`, `triesAtLimit` and `Pulls`
are defined in Verif/Spec/Vec.lean.

`Driver.vec minCap room` is `Vec::from_iter` where `room` items fit into memory and `minCap` is the smallest
capacity allocated (4 for most types). `Collect.vec` has unlimited memory.
-/

namespace Chomp.Props

open Spec Bounded

/-! ### memory is sufficient -/

/-- If the lower limit of the range fits, and memory is twice as large as the number of items which can be
parsed, the memory makes no difference. -/
theorem C73_many (r : Range) (hr : Fine r) (p : Parser σ I U E) (i : Input I) (w : σ) (minCap room N : Nat)
    (hN : ∀ us j w', Reps p i w us j w' → us.length ≤ N)
    (h1 : minCap ≤ room) (h2 : least r ≤ room) (h3 : 2 * N ≤ room) :
    manyWith r (Driver.vec minCap room) p i w = many r (Collect.vec U) p i w := by
  obtain ⟨D, d, h, fin, lo, hi, hk, hf, e1, e2⟩ := Rep.manyWith_iter (T := List U) ((Vec.fine_eq r).mpr hr) p
  unfold Bounded.many
  rw [hk, hk]
  unfold runIter
  rw [M.bind_apply, M.bind_apply]
  congr 1
  refine Vec.same (lo := least r) (N := N) ?_ h1 h2 h3
  intro us it1 w1 hit
  obtain ⟨f1, f2, _⟩ := Vec.iterates_reps hf hit
  refine ⟨hN _ _ _ f1, fun _ => ?_⟩
  dsimp only at f2 ⊢
  rw [hf.hint, f2, e1, Vec.least_eq]
  exact Nat.le_refl _

/-- Each item takes at least one item of the input: then it is enough if the input fits twice. -/
theorem C73_many_input (r : Range) (hr : Fine r) (p : Parser σ I U E) (i : Input I) (w : σ)
    (minCap room : Nat)
    (hp : ∀ j w j' u w', p j w = .ok (.data j' u, w') → j'.buf.length < j.buf.length)
    (h1 : minCap ≤ room) (h2 : least r ≤ room) (h3 : 2 * i.buf.length ≤ room) :
    manyWith r (Driver.vec minCap room) p i w = many r (Collect.vec U) p i w := by
  refine C73_many r hr p i w minCap room i.buf.length (fun us j w' h => ?_) h1 h2 h3
  have : us.length + j.buf.length ≤ i.buf.length := by
    induction h with
    | nil => simp
    | cons h1 _ ih =>
      have := hp _ _ _ _ _ h1
      have := ih (by omega)
      rw [List.length_cons]
      omega
  omega

/-- Likewise `many_till`, for ranges which are not empty. -/
theorem C73_many_till (r : Range) (hr : ∀ m, most r = some m → least r ≤ m) (p : Parser σ I U E)
    (end_ : Parser σ I V N) (i : Input I) (w : σ) (minCap room n : Nat)
    (hN : ∀ us j w', TillRun p end_ (least r) (most r) (triesAtLimit r) i w us j w' → us.length ≤ n)
    (h1 : minCap ≤ room) (h2 : least r ≤ room) (h3 : 2 * n ≤ room) :
    manyTillWith r (Driver.vec minCap room) p end_ i w = manyTill r (Collect.vec U) p end_ i w := by
  have hok : Rep.ok r := by
    cases r with
    | range a b => have := hr (b - 1) rfl; simp only [least] at this; simp only [Rep.ok]; omega
    | _ => trivial
  obtain ⟨D, d, h, fin, lo, hi, hk, hf, e1, e2⟩ := Till.manyTillWith_iter (T := List U) hok p end_
  unfold Bounded.manyTill
  rw [hk, hk]
  unfold runIterTill
  rw [M.bind_apply, M.bind_apply]
  congr 1
  refine Vec.same (lo := least r) (N := n) ?_ h1 h2 h3
  intro us it1 w1 hit
  have hl : Till.last r = triesAtLimit r := by cases r <;> rfl
  rw [hl] at hf
  rw [Vec.least_eq] at e1
  rw [Vec.most_eq] at e2
  obtain ⟨f1, f2⟩ := Vec.iterates_run hf hr hit [] .nil (by simpa using e1) (by
    dsimp only; rw [e2]; cases most r <;> rfl)
  rw [List.nil_append] at f1 f2
  refine ⟨hN _ _ _ f1, fun _ => ?_⟩
  rw [hf.hint, f2]
  exact Nat.le_refl _

/-! ### memory is not sufficient -/

/-- After the first item memory for the least number of items is requested, no matter how long the input is:
if that is too much the parser panics. -/
theorem C73_huge (r : Range) (hr : Fine r) (p : Parser σ I U E) (i i' : Input I) (w w' : σ) (u : U)
    (minCap room : Nat) (hm : most r ≠ some 0) (h : p i w = .ok (.data i' u, w')) (h1 : room < least r)
    (h2 : room < usizeMax) : manyWith r (Driver.vec minCap room) p i w = .panic := by
  obtain ⟨D, d, h', fin, lo, hi, hk, hf, e1, e2⟩ := Rep.manyWith_iter (T := List U) ((Vec.fine_eq r).mpr hr) p
  rw [Vec.most_eq] at e2
  rw [Vec.least_eq] at e1
  obtain ⟨it1, hit⟩ := Vec.reps_iterates hf (.cons h .nil) (.incomplete 1) d (by
    intro m he
    rw [e2] at he
    rw [he] at hm
    have : m ≠ 0 := fun h => hm (by rw [h])
    simp only [List.length_singleton]
    omega)
  obtain ⟨_, f2, _⟩ := Vec.iterates_reps hf hit
  cases hit with
  | cons hn ht =>
    cases ht
    rw [hk]
    unfold runIter
    rw [M.bind_apply, Vec.huge hn]
    · rfl
    · dsimp only at f2 ⊢
      rw [hf.hint, f2, e1]
      simp only [List.length_singleton]
      omega
    · exact h2

/-- If more items can be parsed than fit, the parser panics. -/
theorem C73_exhausted (r : Range) (hr : Fine r) (p : Parser σ I U E) (i i' : Input I) (w w' : σ)
    (us : List U) (minCap room : Nat) (hm : ∀ m, most r = some m → us.length ≤ m)
    (h : Reps p i w us i' w') (h1 : room < us.length) :
    manyWith r (Driver.vec minCap room) p i w = .panic := by
  obtain ⟨D, d, h', fin, lo, hi, hk, hf, e1, e2⟩ := Rep.manyWith_iter (T := List U) ((Vec.fine_eq r).mpr hr) p
  rw [Vec.most_eq] at e2
  obtain ⟨it1, hit⟩ := Vec.reps_iterates hf h (.incomplete 1) d (by rw [e2]; exact hm)
  rw [hk]
  unfold runIter
  rw [M.bind_apply, Vec.exhausted hit h1]
  rfl

/-- Likewise `many_till`. -/
theorem C73_exhausted_till (r : Range) (hr : ∀ m, most r = some m → least r ≤ m) (p : Parser σ I U E)
    (end_ : Parser σ I V N) (i i' : Input I) (w w' : σ) (us : List U) (minCap room : Nat)
    (h : TillRun p end_ (least r) (most r) (triesAtLimit r) i w us i' w') (h1 : room < us.length) :
    manyTillWith r (Driver.vec minCap room) p end_ i w = .panic := by
  have hok : Rep.ok r := by
    cases r with
    | range a b => have := hr (b - 1) rfl; simp only [least] at this; simp only [Rep.ok]; omega
    | _ => trivial
  obtain ⟨D, d, h', fin, lo, hi, hk, hf, e1, e2⟩ := Till.manyTillWith_iter (T := List U) hok p end_
  have hl : Till.last r = triesAtLimit r := by cases r <;> rfl
  rw [hl] at hf
  rw [Vec.least_eq] at e1
  rw [Vec.most_eq] at e2
  obtain ⟨it1, hit, _⟩ := Vec.run_iterates hf hr h (.incomplete 1) d e1 e2
  rw [hk]
  unfold runIterTill
  rw [M.bind_apply, Vec.exhausted hit h1]
  rfl

namespace VecExample

/-- `count(1 << 60, any)` on the one item "a", with memory for 2^32 items: a panic, although the input is one
item long. With the memory unlimited it asks for more input. -/
example (v : Unit) : manyWith (.exactly (2 ^ 60)) (Driver.vec 4 (2 ^ 32)) (Parsers.any (σ := Unit))
    ⟨.default, ['a']⟩ v = .panic :=
  C73_huge (.exactly (2 ^ 60)) trivial _ _ ⟨.default, []⟩ v v 'a' 4 (2 ^ 32) (by decide) rfl (by decide)
    (by decide)

/-- `many(any)` needs at most twice the length of the input. -/
example (s : List Char) (v : Unit) (m : Mode) : manyWith .full (Driver.vec 4 (2 * s.length + 4))
    (Parsers.any (σ := Unit)) ⟨m, s⟩ v = many .full (Collect.vec Char) Parsers.any ⟨m, s⟩ v := by
  refine C73_many_input .full trivial _ _ _ _ _ ?_ (by omega) (Nat.zero_le _) (by dsimp only; omega)
  rintro ⟨m, b⟩ w j' u w' h
  cases b with
  | nil => cases h
  | cons c b => cases h; exact Nat.lt_succ_self _

/-- Five items do not fit into memory for four. -/
example (v : Unit) : manyWith .full (Driver.vec 4 4) (Parsers.any (σ := Unit))
    ⟨.endOfInput, ['a', 'b', 'c', 'd', 'e']⟩ v = .panic :=
  C73_exhausted .full trivial _ _ _ v v ['a', 'b', 'c', 'd', 'e'] 4 4 (by intro m h; cases h)
    (.cons (w1 := v) rfl (.cons (w1 := v) rfl (.cons (w1 := v) rfl (.cons (w1 := v) rfl (.cons (w1 := v) rfl .nil)))))
    (by decide)

end VecExample

/-! ### any collection -/

/-- Whatever the collection does (stop early, call `next` again after `None`, ask for the size hint): if the
repetition succeeds, then the remaining input is where the last success of `p` ended, and `p` has succeeded at
least as often as required and at most as often as allowed. -/
theorem C73_any_collection (r : Range) (hr : Fine r) (c : Consumer U T) (p : Parser σ I U E)
    (i i' : Input I) (w w' : σ) (t : T) (h : manyWith r c.driver p i w = .ok (.data i' t, w')) :
    ∃ us, Pulls p i w us i' w' ∧ least r ≤ us.length ∧ ∀ m, most r = some m → us.length ≤ m := by
  obtain ⟨D, d, h', fin, lo, hi, hk, hf, e1, e2⟩ := Rep.manyWith_iter (T := T) ((Vec.fine_eq r).mpr hr) p
  rw [Vec.most_eq] at e2
  rw [Vec.least_eq] at e1
  rw [hk] at h
  unfold runIter at h
  obtain ⟨⟨t', itE⟩, w2, g1, g2⟩ := M.bind_eq_ok.mp h
  obtain ⟨us, f1, f2, f3⟩ := Vec.consumer_pulls hf c p _ _ _ _ _ _ _ g1
  simp only [M.pure_apply, Res.ok.injEq, Prod.mk.injEq] at g2
  obtain ⟨g2, rfl⟩ := g2
  obtain ⟨rfl, rfl, g3⟩ := hf.finD _ _ _ _ _ _ g2
  refine ⟨us, f1, by rw [e1] at f2; omega, by rw [← e2]; exact f3⟩

namespace VecExample

/-- A collection which keeps the second item only, and calls `next` once more than needed. -/
def second (U : Type) : Consumer U (Option U) where
  State := Nat × Option U
  start := (0, none)
  ask s :=
    match s.1 with
    | 0 => .next fun _ => (1, none)
    | 1 => .next fun o => (2, o)
    | 2 => .next fun _ => (3, s.2)
    | _ => .done s.2

theorem second_ab (v : Unit) : manyWith (.from_ 1) (second Char).driver (Parsers.any (σ := Unit))
    ⟨.endOfInput, ['a', 'b']⟩ v = .ok (.data ⟨.endOfInput, []⟩ (some 'b'), v) := by
  simp only [manyWith]
  unfold manyFrom runIter Consumer.driver
  rw [M.bind_apply, loop_apply]
  show (loop _ _ v).bind _ = _
  rw [loop_apply]
  show (loop _ _ v).bind _ = _
  rw [loop_apply]
  show (loop _ _ v).bind _ = _
  rw [loop_apply]
  rfl

example (v : Unit) : ∃ us, Pulls (Parsers.any (σ := Unit)) ⟨.endOfInput, ['a', 'b']⟩ v us ⟨.endOfInput, []⟩ v ∧
    1 ≤ us.length ∧ ∀ m, none = some m → us.length ≤ m :=
  C73_any_collection (.from_ 1) trivial (second Char) _ _ _ v v _ (second_ab v)

end VecExample

end Chomp.Props
