import Verif.Props.Collections
import Verif.Props.Vec
import Verif.Lemmas.SepBy

/-
Collections which stop early, or which call `next` again after `None`: the bounded repetitions, `many_till` and
`sep_by` (src/combinators/bounded.rs, src/combinators/mod.rs). `StopsAfter` says that a collection pulls certain
items and no more; `PullsTill` (Verif/Spec/Vec.lean) which parsers are run.
-/

namespace Chomp.Props

open Spec Bounded

/-! ### C37 -/

/-- The collection stops pulling after `us`. The repetition succeeds if enough items have been parsed, and no
more are allowed or the slice is the last one; otherwise it asks for one more item of input. It never fails. -/
theorem C37_bounded (r : Range) (hr : Fine r) (c : Collect U T) (p : Parser σ I U E) (i i' : Input I)
    (w w' : σ) (us : List U) (t : T) (h : Reps p i w us i' w') (hm : ∀ m, most r = some m → us.length ≤ m)
    (hs : StopsAfter c us t) :
    (least r ≤ us.length ∧ (most r = some us.length ∨ i'.mode = .endOfInput) →
      many r c p i w = .ok (.data i' t, w')) ∧
    (¬ (least r ≤ us.length ∧ (most r = some us.length ∨ i'.mode = .endOfInput)) →
      many r c p i w = .ok (.incomplete 1, w')) := by
  rw [Rep.many_eq ((Vec.fine_eq r).mpr hr), Vec.least_eq, Vec.most_eq, stops_core h hm hs]
  have e : (least r - us.length = 0 ∧ ((most r).map (· - us.length) = some 0 ∨ i'.mode = .endOfInput)) ↔
      (least r ≤ us.length ∧ (most r = some us.length ∨ i'.mode = .endOfInput)) := by
    rw [Till.hi_map_zero hm]
    constructor <;> rintro ⟨h1, h2⟩ <;> exact ⟨by omega, h2⟩
  unfold Rep.final
  exact ⟨fun hc => by rw [if_pos (e.mpr hc)], fun hc => by rw [if_neg (fun k => hc (e.mp k))]⟩

theorem stops_till {c : Collect U T} {p : Parser σ I U E} {end_ : Parser σ I V N} {t : T}
    {lo hi last g i w us i' w'} (hlh : ∀ m, hi = some m → lo ≤ m)
    (h : TillRun p end_ lo hi last i w us i' w') (a : c.Acc) : ∀ vs, vs ≠ [] →
    StopsAfter.go c t a (us ++ vs) → ∃ a', StopsAfter.go c t a' vs ∧
      loop (Till.step c p end_ last g) (a, i, lo, hi) w =
        loop (Till.step c p end_ last g) (a', i', lo - us.length, hi.map (· - us.length)) w' := by
  induction h with
  | nil => intro vs _ hs; exact ⟨a, hs, by cases hi <;> simp⟩
  | snoc hr hb ht hp ih =>
    rename_i us i1 w1 w2 i2 u w3
    intro vs hne hs
    rw [List.append_assoc] at hs
    obtain ⟨a1, h1, h2⟩ := ih ([u] ++ vs) (by simp) hs
    have hs1 : match c.feed a1 u with
      | .inr t' => vs = [] ∧ t' = t
      | .inl a' => StopsAfter.go c t a' vs := h1
    cases hf : c.feed a1 u with
    | inr t' => rw [hf] at hs1; exact absurd hs1.1 hne
    | inl a2 =>
      rw [hf] at hs1
      refine ⟨a2, hs1, ?_⟩
      rw [h2, loop_apply]
      have hle := Till.TillRun.le hr
      have hn : ¬ (hi.map (· - us.length) = some 0) := Rep.hi_ne hb
      have ht' := Till.test_iff.mpr ht
      rw [← Till.tries_eq hlh hle] at ht'
      have hs : Till.step c p end_ last g (a1, i1, lo - us.length, hi.map (· - us.length)) w1 =
          .ok (.inl (a2, i2, lo - us.length - 1, (hi.map (· - us.length)).map (· - 1)), w3) := by
        simp only [Till.step, ht', Res.bind_ok, hn, if_false, hp, hf]
      rw [hs]
      have e1 : lo - (us ++ [u]).length = lo - us.length - 1 := by simp; omega
      have e2 : hi.map (· - (us ++ [u]).length) = (hi.map (· - us.length)).map (· - 1) := by
        cases hi with
        | none => rfl
        | some m => simp; omega
      rw [e1, e2]
      rfl

/-- A collection which stops pulling makes `many_till` ask for more input, on the last slice too: the end is not
looked for any more. The range is not empty. -/
theorem C37_many_till (r : Range) (hr : ∀ m, most r = some m → least r ≤ m) (c : Collect U T)
    (p : Parser σ I U E) (end_ : Parser σ I V N) (i i' : Input I) (w w' : σ) (us : List U) (t : T)
    (h : TillRun p end_ (least r) (most r) (triesAtLimit r) i w us i' w') (hs : StopsAfter c us t) :
    manyTill r c p end_ i w = .ok (.incomplete 1, w') := by
  have hok : Rep.ok r := by
    rw [Vec.fine_eq]
    cases r with
    | range a b => have := hr _ rfl; simp only [least, Fine] at *; omega
    | _ => trivial
  have hlast : Till.last r = triesAtLimit r := by cases r <;> rfl
  rw [Till.manyTill_eq hok, Vec.least_eq, Vec.most_eq, hlast]
  unfold StopsAfter at hs
  unfold Till.core
  cases hc : c.start with
  | inr t' =>
    rw [hc] at hs
    obtain ⟨hu, _⟩ := hs
    generalize us = vs at h hu
    cases h with
    | nil => rfl
    | snoc => simp at hu
  | inl a =>
    rw [hc] at hs
    generalize us = vs at h hs
    cases h with
    | nil => exact hs.elim
    | @snoc us0 i1 w1 w2 i2 u w3 h1 hb ht hp =>
      obtain ⟨a1, g1, g2⟩ := stops_till (g := Till.good r) hr h1 a [u] (by simp) hs
      have g3 : match c.feed a1 u with
        | .inr t' => ([] : List U) = [] ∧ t' = t
        | .inl a' => StopsAfter.go c t a' [] := g1
      have hle := Till.TillRun.le h1
      have hn : ¬ ((most r).map (· - us0.length) = some 0) := Rep.hi_ne hb
      have ht' := Till.test_iff.mpr ht
      rw [← Till.tries_eq hr hle] at ht'
      cases hf : c.feed a1 u with
      | inl a2 => rw [hf] at g3; exact g3.elim
      | inr t' =>
        dsimp only
        rw [g2, loop_apply]
        simp only [Till.step, ht', Res.bind_ok, hn, if_false, hp, hf]

/-- `sep_by` and `sep_by1` with a collection which stops pulling. -/
theorem C37_sep_by (conv : N → E) (c : Collect U T) (p : Parser σ I U E) (sep : Parser σ I V N)
    (i i' : Input I) (w w' : σ) (us : List U) (t : T)
    (h : SepReps p (sepThen conv p sep) i w us i' w') (hs : StopsAfter c us t) :
    (i'.mode = .endOfInput → Comb.sepBy conv c p sep i w = .ok (.data i' t, w')) ∧
    (i'.mode = .default → Comb.sepBy conv c p sep i w = .ok (.incomplete 1, w')) ∧
    (i'.mode = .endOfInput ∧ us ≠ [] → Comb.sepBy1 conv c p sep i w = .ok (.data i' t, w')) ∧
    (i'.mode = .default ∨ us = [] → Comb.sepBy1 conv c p sep i w = .ok (.incomplete 1, w')) := by
  have hr := Sep.reps_false.mpr ⟨h, rfl⟩
  have h0 := C37_bounded .full trivial c (Comb.sepParser conv p sep) i i' (w, false) (w', !us.isEmpty) us t hr
    (fun m e => by cases e) hs
  have h1 := C37_bounded (.from_ 1) trivial c (Comb.sepParser conv p sep) i i' (w, false) (w', !us.isEmpty) us t
    hr (fun m e => by cases e) hs
  unfold Comb.sepBy Comb.sepBy1
  refine ⟨fun hm => ?_, fun hm => ?_, fun hm => ?_, fun hm => ?_⟩
  · rw [Sep.newLocal_eq, h0.1 ⟨Nat.zero_le _, .inr hm⟩]; rfl
  · rw [Sep.newLocal_eq, h0.2 (by simp [most, hm])]; rfl
  · rw [Sep.newLocal_eq, h1.1 ⟨List.length_pos_iff.mpr hm.2, .inr hm.1⟩]; rfl
  · rw [Sep.newLocal_eq, h1.2 (by
      rintro ⟨k1, k2⟩
      simp only [most, least, reduceCtorEq, false_or] at k1 k2
      rcases hm with hm | hm
      · rw [hm] at k2; cases k2
      · simp [hm] at k1)]; rfl

namespace EarlyExample

/-- Yields `None` for a dot. -/
def dotted : Parser Unit Char (Option Char) (Error Char) :=
  Parser.map Parsers.any (fun c => if c = '.' then none else some c)

theorem two : Reps dotted ⟨.endOfInput, ['a', '.', 'x']⟩ () [some 'a', none] ⟨.endOfInput, ['x']⟩ () :=
  .cons (i1 := ⟨.endOfInput, ['.', 'x']⟩) (w1 := ()) rfl (.cons (w1 := ()) rfl .nil)

/-- Enough items: success on the last slice. -/
example : many (.range 1 5) (Collect.optionVec Char) dotted ⟨.endOfInput, ['a', '.', 'x']⟩ () =
    .ok (.data ⟨.endOfInput, ['x']⟩ none, ()) :=
  (C37_bounded (.range 1 5) (by simp [Fine]) (Collect.optionVec Char) dotted _ _ _ _ _ none two
    (fun m e => by cases e; decide) (C37_option_stops ['a'])).1 ⟨by decide, .inr rfl⟩

/-- Too few: incomplete on the last slice. -/
example : many (.range 3 5) (Collect.optionVec Char) dotted ⟨.endOfInput, ['a', '.', 'x']⟩ () =
    .ok (.incomplete 1, ()) :=
  (C37_bounded (.range 3 5) (by simp [Fine]) (Collect.optionVec Char) dotted _ _ _ _ _ none two
    (fun m e => by cases e; decide) (C37_option_stops ['a'])).2 (by simp [least])

/-- `many_till` with the end `x` never looks at the `x`. -/
example : manyTill .full (Collect.optionVec Char) dotted (Parsers.token true 'x' : Parser Unit Char Char (Error Char))
    ⟨.endOfInput, ['a', '.', 'x']⟩ () = .ok (.incomplete 1, ()) :=
  C37_many_till .full (fun m e => by cases e) (Collect.optionVec Char) dotted _ _ ⟨.endOfInput, ['x']⟩ () ()
    [some 'a', none] none
    (.snoc (us := [some 'a']) (i' := ⟨.endOfInput, ['.', 'x']⟩) (w' := ()) (w1 := ())
      (.snoc (us := []) (w1 := ()) .nil (fun m e => by cases e)
        (.miss_error (b := ['a', '.', 'x']) (e := .expected 'x') (w' := ()) rfl .none) rfl)
      (fun m e => by cases e) (.miss_error (b := ['.', 'x']) (e := .expected 'x') (w' := ()) rfl .none) rfl)
    (C37_option_stops ['a'])

/-- `a,.,x`, separated by commas. -/
example : Comb.sepBy id (Collect.optionVec Char) dotted
    (Parsers.token true ',' : Parser Unit Char Char (Error Char))
    ⟨.default, ['a', ',', '.', ',', 'x']⟩ () = .ok (.incomplete 1, ()) :=
  (C37_sep_by id (Collect.optionVec Char) dotted _ _ ⟨.default, [',', 'x']⟩ () () [some 'a', none] none
    (.cons (i1 := ⟨.default, [',', '.', ',', 'x']⟩) (w1 := ()) rfl (.cons (w1 := ()) rfl .nil))
    (C37_option_stops ['a'])).2.1 rfl

end EarlyExample

/-! ### C73 -/

theorem test_pulls {p : Parser σ I U E} {end_ : Parser σ I V N} {i w us b j w1 n r w2}
    (h : PullsTill p end_ i w us b j w1) (ht : Test end_ n j w1 r w2) :
    (r = none → PullsTill p end_ i w us b j w2) ∧ ∀ j', r = some j' → PullsTill p end_ i w us true j' w2 := by
  induction ht with
  | none => exact ⟨fun _ => h, nofun⟩
  | hit h1 => exact ⟨nofun, fun j' e => by cases e; exact .ended h h1⟩
  | miss_error h1 _ ih => exact ih (.end_error h h1)
  | miss_incomplete h1 _ ih => exact ih (.end_incomplete h h1)

theorem consumer_pulls_till {h : HooksTill σ I E D}
    {fin : T → Input I → D → EndStateTill I E → M σ (ParseResult I T E)} {end_ : Parser σ I V N} {last : Nat}
    {good : Nat → Option Nat → Bool} {lo : D → Nat} {hi : D → Option Nat}
    (hf : Till.Facts h fin end_ last good lo hi) (c : Consumer U T) (p : Parser σ I U E)
    (i : Input I) (d : D) (w w' : σ) (t : T) (itE : IterTill I E D)
    (hk : c.driver _ (iterTillNext h p) (fun it => h.sizeHint it.data) ⟨.incomplete 1, i, d⟩ w =
      .ok ((t, itE), w')) :
    ∃ us b, PullsTill p end_ i w us b itE.buf w' ∧ (itE.state = .endSuccess → b = true) ∧
      lo itE.data = lo d - us.length ∧ (∀ m, hi d = some m → us.length ≤ m) ∧
      hi itE.data = (hi d).map (· - us.length) := by
  unfold Consumer.driver at hk
  refine loop_inv
    (P := fun s w1 => ∃ us b, PullsTill p end_ i w us b s.2.buf w1 ∧ (s.2.state = .endSuccess → b = true) ∧
      lo s.2.data = lo d - us.length ∧ (∀ m, hi d = some m → us.length ≤ m) ∧
      hi s.2.data = (hi d).map (· - us.length))
    (Q := fun r => ∀ t itE w', r = .ok ((t, itE), w') →
      ∃ us b, PullsTill p end_ i w us b itE.buf w' ∧ (itE.state = .endSuccess → b = true) ∧
      lo itE.data = lo d - us.length ∧ (∀ m, hi d = some m → us.length ≤ m) ∧
      hi itE.data = (hi d).map (· - us.length))
    (by intro _ _ _ h; cases h) ?_
    ⟨[], false, .start, (fun hd => by cases hd), rfl, fun _ _ => Nat.zero_le _, by cases hi d <;> rfl⟩ t itE w' hk
  rintro ⟨s, it⟩ w1 ⟨us, b, h1, h0, h2, h3, h4⟩
  dsimp only at h1 h2 h4 h0
  cases ha : c.ask s with
  | done t =>
    right
    intro t' itE w' hr
    rw [loop_apply] at hr
    dsimp only at hr
    rw [ha] at hr
    cases hr
    exact ⟨us, b, h1, h0, h2, h3, h4⟩
  | panic =>
    right
    intro t' itE w' hr
    rw [loop_apply] at hr
    dsimp only at hr
    rw [ha] at hr
    cases hr
  | hint k =>
    left
    exact ⟨(k (h.sizeHint it.data), it), w1, by simp only; rfl, us, b, h1, h0, h2, h3, h4⟩
  | next k =>
    cases hn : iterTillNext h p it w1 with
    | ok x =>
      obtain ⟨⟨o, it1⟩, w2⟩ := x
      left
      refine ⟨(k o, it1), w2, by simp only; rw [M.bind_ok hn]; rfl, ?_⟩
      dsimp only
      rw [Till.iterTillNext_eq, hf.pre] at hn
      cases ht : Till.test end_ (Till.triesAt last (lo it.data) (hi it.data)) it.buf w1 with
      | ok x =>
        obtain ⟨x, w3⟩ := x
        rw [ht] at hn
        have ht' := test_pulls h1 (Till.test_iff.mp ht)
        cases x with
        | some j =>
          cases hn
          exact ⟨us, true, ht'.2 _ rfl, fun _ => rfl, h2, h3, h4⟩
        | none =>
          have h1' := ht'.1 rfl
          by_cases hh : hi it.data = some 0
          · simp only [Res.bind_ok, hh, decide_true, if_true] at hn
            cases hn
            exact ⟨us, b, h1', h0, h2, h3, h4⟩
          · simp only [Res.bind_ok, hh, decide_false, Bool.false_eq_true, if_false] at hn
            cases hr : p it.buf w3 with
            | ok r =>
              obtain ⟨r, w4⟩ := r
              rw [hr] at hn
              cases r with
              | data j v =>
                obtain ⟨d', e1, e2, e3⟩ := hf.on it.data w4 hh
                simp only [Res.bind_ok, e1] at hn
                cases hn
                refine ⟨us ++ [v], b, .item h1' hr, h0, ?_, ?_, ?_⟩
                · dsimp only; rw [e2, h2]; simp; omega
                · intro m hm
                  have := h3 m hm
                  rw [h4, hm] at hh
                  simp only [Option.map_some, Option.some.injEq] at hh
                  simp; omega
                · dsimp only
                  rw [e3, h4]
                  cases hi d with
                  | none => rfl
                  | some m => simp; omega
              | error x e =>
                cases hn
                exact ⟨us, false, .error h1' hr, (fun hd => by cases hd), h2, h3, h4⟩
              | incomplete n =>
                cases hn
                exact ⟨us, false, .incomplete h1' hr, (fun hd => by cases hd), h2, h3, h4⟩
            | _ => rw [hr] at hn; cases hn
      | _ => rw [ht] at hn; cases hn
    | _ =>
      right
      intro t' itE w' hr
      rw [loop_apply] at hr
      dsimp only at hr
      rw [ha] at hr
      dsimp only at hr
      rw [M.bind_apply, hn] at hr
      cases hr

/-- Whatever the collection does: if `many_till` succeeds, then the end was found, `p` has not failed since, the
remaining input is where the last success of either parser ended, and `p` has succeeded at least as often as
required and at most as often as allowed. -/
theorem C73_any_collection_till (r : Range) (hr : Fine r) (c : Consumer U T) (p : Parser σ I U E)
    (end_ : Parser σ I V N) (i i' : Input I) (w w' : σ) (t : T)
    (h : manyTillWith r c.driver p end_ i w = .ok (.data i' t, w')) :
    ∃ us, PullsTill p end_ i w us true i' w' ∧ least r ≤ us.length ∧ ∀ m, most r = some m → us.length ≤ m := by
  obtain ⟨D, d, h', fin, lo, hi, hk, hf, e1, e2⟩ :=
    Till.manyTillWith_iter (T := T) ((Vec.fine_eq r).mpr hr) p end_
  rw [Vec.most_eq] at e2
  rw [Vec.least_eq] at e1
  rw [hk] at h
  unfold runIterTill at h
  obtain ⟨⟨t', itE⟩, w2, g1, g2⟩ := M.bind_eq_ok.mp h
  obtain ⟨us, b, f1, f0, f2, f3, f4⟩ := consumer_pulls_till hf c p _ _ _ _ _ _ g1
  dsimp only at g2
  cases hst : itE.state with
  | error b e => rw [hst, hf.finE] at g2; cases g2
  | incomplete n => rw [hst, hf.finI] at g2; cases g2
  | endSuccess =>
    rw [hst, hf.finS] at g2
    split at g2
    · rename_i hg
      cases g2
      refine ⟨us, f0 hst ▸ f1, ?_, by rw [← e2]; exact f3⟩
      cases r with
      | to n => exact Nat.zero_le _
      | _ =>
        simp only [Till.good, beq_iff_eq] at hg
        rw [e1, hg] at f2
        omega
    · cases g2

namespace EarlyExample

/-- A collection which pulls three times, whatever it gets, and keeps the last answer. -/
def thrice (U : Type) : Consumer U (Option U) where
  State := Nat × Option U
  start := (0, none)
  ask s := if s.1 < 3 then .next fun o => (s.1 + 1, o) else .done s.2

/-- With the end `.` on `a.b`, it gets `a`, `None` and `b`: the item after the end counts, and the remaining input
is after it. -/
theorem thrice_ab (v : Unit) : manyTillWith .full (thrice Char).driver (Parsers.any (σ := Unit))
    (Parsers.token true '.' : Parser Unit Char Char (Error Char)) ⟨.endOfInput, ['a', '.', 'b']⟩ v =
      .ok (.data ⟨.endOfInput, []⟩ (some 'b'), v) := by
  simp only [manyTillWith]
  unfold manyTillFull runIterTill Consumer.driver
  rw [M.bind_apply, loop_apply]
  show (loop _ _ v).bind _ = _
  rw [loop_apply]
  show (loop _ _ v).bind _ = _
  rw [loop_apply]
  show (loop _ _ v).bind _ = _
  rw [loop_apply]
  rfl

example (v : Unit) : ∃ us, PullsTill (Parsers.any (σ := Unit))
    (Parsers.token true '.' : Parser Unit Char Char (Error Char)) ⟨.endOfInput, ['a', '.', 'b']⟩ v us true
      ⟨.endOfInput, []⟩ v ∧ 0 ≤ us.length ∧ ∀ m, none = some m → us.length ≤ m :=
  C73_any_collection_till .full trivial (thrice Char) _ _ _ _ v v _ (thrice_ab v)

end EarlyExample

end Chomp.Props
