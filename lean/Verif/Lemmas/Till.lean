import Verif.Lemmas.Repeat
import Verif.Spec.Till

/-
The common loop of the `many_till` combinators.
-/

namespace Chomp

open Spec

namespace Till

/-- Try `end_` up to `n` times. -/
def test (end_ : Parser σ I V N) : Nat → Input I → M σ (Option (Input I))
  | 0, _ => pure none
  | n + 1, i => fun w => end_ i w >>= fun r =>
    match r.1 with
    | .data b _ => .ok (some b, r.2)
    | _ => test end_ n i r.2

/-- How often `end_` is tried. -/
def triesAt (last lo : Nat) (hi : Option Nat) : Nat :=
  if hi = some 0 then (if lo = 0 then last else 1) else if lo = 0 then 1 else 0

def step (c : Collect U T) (p : Parser σ I U E) (end_ : Parser σ I V N) (last : Nat)
    (good : Nat → Option Nat → Bool) (s : c.Acc × Input I × Nat × Option Nat) :
    M σ ((c.Acc × Input I × Nat × Option Nat) ⊕ ParseResult I T E) := fun w =>
  let (a, i, lo, hi) := s
  test end_ (triesAt last lo hi) i w >>= fun x =>
    match x.1 with
    | some b => if good lo hi then .ok (.inr (.data b (c.finish a)), x.2) else .panic
    | none =>
      if hi = some 0 then .ok (.inr (.incomplete 1), x.2)
      else p i x.2 >>= fun r =>
        match r.1 with
        | .data b v =>
          match c.feed a v with
          | .inl a' => .ok (.inl (a', b, lo - 1, hi.map (· - 1)), r.2)
          | .inr _ => .ok (.inr (.incomplete 1), r.2)
        | .error b e => .ok (.inr (.error b e), r.2)
        | .incomplete n => .ok (.inr (.incomplete n), r.2)

def core (c : Collect U T) (p : Parser σ I U E) (end_ : Parser σ I V N) (last : Nat)
    (good : Nat → Option Nat → Bool) (lo : Nat) (hi : Option Nat) : Parser σ I T E :=
  fun i w => match c.start with
    | .inr _ => .ok (.incomplete 1, w)
    | .inl a => loop (step c p end_ last good) (a, i, lo, hi) w

open Bounded

theorem iterTillNext_eq (h : HooksTill σ I E D) (p : Parser σ I U E) (it : IterTill I E D) (w : σ) :
    iterTillNext h p it w = h.pre it w >>= fun x =>
      if x.1.1 = true then .ok ((none, x.1.2), x.2)
      else p x.1.2.buf x.2 >>= fun r => match r.1 with
        | .data b v => h.on x.1.2.data r.2 >>= fun d =>
            .ok ((some v, { x.1.2 with buf := b, data := d.1 }), d.2)
        | .error b e => .ok ((none, { x.1.2 with state := .error b e }), r.2)
        | .incomplete n => .ok ((none, { x.1.2 with state := .incomplete n }), r.2) := by
  unfold iterTillNext
  rw [M.bind_apply]
  congr 1
  funext x
  obtain ⟨⟨stop, it⟩, w'⟩ := x
  dsimp only
  split
  · rfl
  · rw [M.bind_apply]
    congr 1
    funext r
    obtain ⟨r, w'⟩ := r
    cases r <;> rfl

theorem endTest_eq (end_ : Parser σ I V N) (it : IterTill I E D) (w : σ) :
    endTest end_ it w = end_ it.buf w >>= fun r => match r.1 with
      | .data b _ => .ok ((true, { it with buf := b, state := .endSuccess }), r.2)
      | _ => .ok ((false, it), r.2) := by
  unfold endTest
  rw [M.bind_apply]
  congr 1
  funext r
  obtain ⟨r, w'⟩ := r
  cases r <;> rfl

/-- `run_iter_till!` with counters is `core`. -/
theorem runIterTill_eq (c : Collect U T) (d : D) (h : HooksTill σ I E D)
    (fin : T → Input I → D → EndStateTill I E → M σ (ParseResult I T E)) (p : Parser σ I U E)
    (end_ : Parser σ I V N) (last : Nat) (good : Nat → Option Nat → Bool)
    (lo : D → Nat) (hi : D → Option Nat) (inv : D → Prop)
    (hpre : ∀ it w, inv it.data → h.pre it w = test end_ (triesAt last (lo it.data) (hi it.data)) it.buf w >>=
      fun x => match x.1 with
        | some b => .ok ((true, { it with buf := b, state := .endSuccess }), x.2)
        | none => .ok ((decide (hi it.data = some 0), it), x.2))
    (hon : ∀ d w, inv d → hi d ≠ some 0 →
      ∃ d', h.on d w = .ok (d', w) ∧ lo d' = lo d - 1 ∧ hi d' = (hi d).map (· - 1) ∧ inv d')
    (hfinE : ∀ t s d b e w, fin t s d (.error b e) w = .ok (.error b e, w))
    (hfinI : ∀ t s d n w, fin t s d (.incomplete n) w = .ok (.incomplete n, w))
    (hfinS : ∀ t s d w, inv d → fin t s d .endSuccess w =
      if good (lo d) (hi d) then .ok (.data s t, w) else .panic) (hd : inv d) :
    runIterTill c.driver d h fin p = core c p end_ last good (lo d) (hi d) := by
  funext i w
  unfold runIterTill core Collect.driver fromIter
  cases c.start with
  | inr t => simp [M.bind_apply, hfinI]
  | inl a =>
    rw [M.bind_apply]
    dsimp only
    refine loop_sim (s1 := (a, (⟨.incomplete 1, i, d⟩ : IterTill I E D)))
      (R := fun (s1 : c.Acc × IterTill I E D) w1 (s2 : c.Acc × Input I × Nat × Option Nat) w2 =>
        w1 = w2 ∧ s1.2.state = .incomplete 1 ∧ inv s1.2.data ∧
          s2 = (s1.1, s1.2.buf, lo s1.2.data, hi s1.2.data))
      (Q := fun r1 r2 => (r1 >>= fun q => match q.1 with
        | (result, (it : IterTill I E D)) =>
          (fin result it.buf it.data it.state : M σ _) q.2) = r2)
      rfl ?_ ⟨rfl, rfl, hd, rfl⟩
    rintro ⟨a, st, i, d⟩ w _ _ ⟨rfl, hst, hinv, rfl⟩
    dsimp only at hst hinv; subst hst
    have hpre' := hpre ⟨.incomplete 1, i, d⟩ w hinv
    dsimp only at hpre'
    cases ht : test end_ (triesAt last (lo d) (hi d)) i w with
    | ok x =>
      obtain ⟨x, w0⟩ := x
      rw [ht] at hpre'
      cases x with
      | some b =>
        right
        rw [loop_apply, loop_apply]
        by_cases hg : good (lo d) (hi d) = true <;>
          simp [M.bind_apply, iterTillNext_eq, hpre', step, ht, hfinS _ _ _ _ hinv, hg]
      | none =>
        by_cases hh : hi d = some 0
        · right
          rw [hh] at ht
          rw [loop_apply, loop_apply]
          simp [M.bind_apply, iterTillNext_eq, hpre', step, ht, hfinI, hh]
        · cases hr : p i w0 with
          | ok r =>
            obtain ⟨r, w1⟩ := r
            cases r with
            | data b v =>
              obtain ⟨d', hd', hlo, hhi, hinv'⟩ := hon d w1 hinv hh
              cases hf : c.feed a v with
              | inl a' =>
                left
                refine ⟨(a', ⟨.incomplete 1, b, d'⟩), w1,
                  (a', b, lo d - 1, (hi d).map (· - 1)), w1, ?_, ?_, rfl, rfl, hinv', ?_⟩
                · simp [M.bind_apply, iterTillNext_eq, hpre', hh, hr, hd', hf]
                · simp [step, ht, hh, hr, hf]
                · simp [hlo, hhi]
              | inr t =>
                right
                rw [loop_apply, loop_apply]
                simp [M.bind_apply, iterTillNext_eq, hpre', hh, hr, hd', hf, step, ht, hfinI]
            | error b e =>
              right
              rw [loop_apply, loop_apply]
              simp [M.bind_apply, iterTillNext_eq, hpre', hh, hr, step, ht, hfinE]
            | incomplete n =>
              right
              rw [loop_apply, loop_apply]
              simp [M.bind_apply, iterTillNext_eq, hpre', hh, hr, step, ht, hfinI]
          | _ =>
            right
            rw [loop_apply, loop_apply]
            simp [M.bind_apply, iterTillNext_eq, hpre', hh, hr, step, ht]
    | _ =>
      right
      rw [ht] at hpre'
      rw [loop_apply, loop_apply]
      simp [M.bind_apply, iterTillNext_eq, hpre', step, ht]

/-- Which numbers of items are fine when `end_` matches. -/
def good : Bounded.Range → Nat → Option Nat → Bool
  | .to _, _, hi => hi == some 0
  | _, lo, _ => lo == 0

/-- Number of tries at the limit. -/
def last : Bounded.Range → Nat
  | .range _ _ => 2
  | _ => 1

theorem test_one (end_ : Parser σ I V N) (i : Input I) (w : σ) :
    test end_ 1 i w = end_ i w >>= fun r => match r.1 with
      | .data b _ => .ok (some b, r.2)
      | _ => .ok (none, r.2) := by
  unfold test
  congr 1

theorem test_two (end_ : Parser σ I V N) (i : Input I) (w : σ) :
    test end_ 2 i w = end_ i w >>= fun r => match r.1 with
      | .data b _ => .ok (some b, r.2)
      | _ => end_ i r.2 >>= fun r => match r.1 with
        | .data b _ => .ok (some b, r.2)
        | _ => .ok (none, r.2) := by
  unfold test
  congr 1

/-- What the `many_till` of every range has in common. -/
structure Facts (h : HooksTill σ I E D)
    (fin : T → Input I → D → EndStateTill I E → M σ (ParseResult I T E)) (end_ : Parser σ I V N)
    (last : Nat) (good : Nat → Option Nat → Bool) (lo : D → Nat) (hi : D → Option Nat) : Prop where
  hint : ∀ d, h.sizeHint d = (lo d, hi d)
  pre : ∀ it w, h.pre it w = test end_ (triesAt last (lo it.data) (hi it.data)) it.buf w >>=
      fun x => match x.1 with
        | some b => .ok ((true, { it with buf := b, state := .endSuccess }), x.2)
        | none => .ok ((decide (hi it.data = some 0), it), x.2)
  on : ∀ d w, hi d ≠ some 0 →
      ∃ d', h.on d w = .ok (d', w) ∧ lo d' = lo d - 1 ∧ hi d' = (hi d).map (· - 1)
  finE : ∀ t s d b e w, fin t s d (.error b e) w = .ok (.error b e, w)
  finI : ∀ t s d n w, fin t s d (.incomplete n) w = .ok (.incomplete n, w)
  finS : ∀ t s d w, fin t s d .endSuccess w =
      if good (lo d) (hi d) then .ok (.data s t, w) else .panic

/-- `bounded::many_till` with any collection. -/
theorem manyTillWith_iter {r : Bounded.Range} (hr : Rep.ok r) (p : Parser σ I U E)
    (end_ : Parser σ I V N) :
    ∃ (D : Type) (d : D) (h : HooksTill σ I E D)
      (fin : T → Input I → D → EndStateTill I E → M σ (ParseResult I T E))
      (lo : D → Nat) (hi : D → Option Nat),
      (∀ k : Driver σ U T, Bounded.manyTillWith r k p end_ = Bounded.runIterTill k d h fin p) ∧
      Facts h fin end_ (last r) (good r) lo hi ∧ lo d = Rep.min r ∧ hi d = Rep.max r := by
  cases r with
  | range a b =>
    have hab : a ≤ b := hr
    refine ⟨_, (a, Bounded.maxOf b), hooksTillRange end_, _, fun d => d.1, fun d => some d.2,
      fun k => funext fun i => if_pos hab, ⟨fun _ => rfl, ?_, ?_, ?_, ?_, ?_⟩, rfl,
      by simp [Rep.max, Rep.maxOf_eq]⟩
    · rintro ⟨st, i, x, y⟩ w
      by_cases hx : x = 0 <;> by_cases hy : y = 0
      · subst hx hy
        simp only [last, triesAt, if_true, test_two, hooksTillRange, M.bind_apply, endTest_eq, beq_self_eq_true]
        cases h1 : end_ i w with
        | ok r =>
          obtain ⟨r, w1⟩ := r
          cases r with
          | data => simp
          | _ =>
            simp [M.map_apply, endTest_eq]
            cases h2 : end_ i w1 with
            | ok r2 => obtain ⟨r2, w2⟩ := r2; cases r2 <;> simp
            | _ => simp
        | _ => simp
      · subst hx
        simp only [last, triesAt, Option.some.injEq, hy, if_false, if_true, test_one, hooksTillRange,
          M.bind_apply, endTest_eq, beq_self_eq_true]
        cases h1 : end_ i w with
        | ok r =>
          obtain ⟨r, w1⟩ := r
          cases r <;> simp [hy]
        | _ => simp
      · subst hy
        simp only [triesAt, hx, if_false, if_true, test_one, hooksTillRange]
        cases h1 : end_ i w with
        | ok r =>
          obtain ⟨r, w1⟩ := r
          cases r <;> simp [hx, M.map_apply, endTest_eq, h1]
        | _ => simp [hx, M.map_apply, endTest_eq, h1]
      · simp [triesAt, hx, hy, test, hooksTillRange]
    · intro d w h
      refine ⟨(d.1 - 1, d.2 - 1), ?_, rfl, rfl⟩
      unfold hooksTillRange
      dsimp only
      rw [M.bind_ok (Rep.decSat_ok _ _), M.bind_ok (Rep.dec_ok (by simpa using h) _)]; rfl
    · rintro t s ⟨x, y⟩ b e w
      cases x <;> rfl
    · rintro t s ⟨x, y⟩ n w
      cases x <;> rfl
    · rintro t s ⟨x, y⟩ w
      cases x <;> rfl
  | from_ n =>
    refine ⟨_, n, hooksTillFrom end_, _, fun d => d, fun d => none, fun k => Bounded.manyTillFrom.eq_1 n k p end_,
      ⟨fun _ => rfl, ?_, ?_, ?_, ?_, ?_⟩, rfl, rfl⟩
    · rintro ⟨st, i, x⟩ w
      by_cases hx : x = 0
      · subst hx
        simp only [triesAt, reduceCtorEq, if_false, if_true, test_one, hooksTillFrom,
          endTest_eq, beq_self_eq_true]
        cases h1 : end_ i w with
        | ok r =>
          obtain ⟨r, w1⟩ := r
          cases r <;> simp
        | _ => simp
      · simp [triesAt, hx, test, hooksTillFrom]
    · intro d w h
      exact ⟨d - 1, Rep.decSat_ok _ _, rfl, rfl⟩
    · rintro t s x b e w
      cases x <;> rfl
    · rintro t s x n w
      cases x <;> rfl
    · rintro t s x w
      cases x <;> rfl
  | full =>
    refine ⟨_, (), hooksTillFull end_, _, fun d => 0, fun d => none, fun k => Bounded.manyTillFull.eq_1 k p end_,
      ⟨fun _ => rfl, ?_, ?_, ?_, ?_, ?_⟩, rfl, rfl⟩
    · rintro ⟨st, i, x⟩ w
      simp only [triesAt, reduceCtorEq, if_false, if_true, test_one, hooksTillFull,
        endTest_eq]
      cases h1 : end_ i w with
      | ok r =>
        obtain ⟨r, w1⟩ := r
        cases r <;> simp
      | _ => simp
    · intro d w h
      exact ⟨(), rfl, rfl, rfl⟩
    · rintro t s x b e w; rfl
    · rintro t s x n w; rfl
    · rintro t s x w; rfl
  | to n =>
    refine ⟨_, Bounded.maxOf n, hooksTillTo end_, _, fun d => 0, fun d => some d, fun k => Bounded.manyTillTo.eq_1 n k p end_,
      ⟨fun _ => rfl, ?_, ?_, ?_, ?_, ?_⟩, rfl, by simp [Rep.max, Rep.maxOf_eq]⟩
    · rintro ⟨st, i, y⟩ w
      by_cases hy : y = 0
      · subst hy
        simp only [last, triesAt, if_true, test_one, hooksTillTo, M.bind_apply, endTest_eq]
        cases h1 : end_ i w with
        | ok r =>
          obtain ⟨r, w1⟩ := r
          cases r <;> simp
        | _ => simp
      · simp only [last, triesAt, Option.some.injEq, hy, if_false, if_true, test_one, hooksTillTo,
          M.bind_apply, endTest_eq]
        cases h1 : end_ i w with
        | ok r =>
          obtain ⟨r, w1⟩ := r
          cases r <;> simp [hy]
        | _ => simp
    · intro d w h
      exact ⟨d - 1, Rep.dec_ok (by simpa using h) _, rfl, rfl⟩
    · rintro t s x b e w
      cases x <;> rfl
    · rintro t s x n w
      cases x <;> rfl
    · rintro t s x w
      cases x <;> rfl
  | exactly n =>
    refine ⟨_, n, hooksTillExactly end_, _, fun d => d, fun d => some d, fun k => Bounded.manyTillExactly.eq_1 n k p end_,
      ⟨fun _ => rfl, ?_, ?_, ?_, ?_, ?_⟩, rfl, rfl⟩
    · rintro ⟨st, i, y⟩ w
      by_cases hy : y = 0
      · subst hy
        simp only [last, triesAt, if_true, test_one, hooksTillExactly, M.bind_apply, endTest_eq,
          beq_self_eq_true]
        cases h1 : end_ i w with
        | ok r =>
          obtain ⟨r, w1⟩ := r
          cases r <;> simp
        | _ => simp
      · simp [triesAt, hy, test, hooksTillExactly]
    · intro d w h
      exact ⟨d - 1, Rep.dec_ok (by simpa using h) _, rfl, rfl⟩
    · rintro t s x b e w
      cases x <;> rfl
    · rintro t s x n w
      cases x <;> rfl
    · rintro t s x w
      cases x <;> rfl

/-- `bounded::many_till` is the common loop. -/
theorem manyTill_eq {r : Bounded.Range} (hr : Rep.ok r) (c : Collect U T) (p : Parser σ I U E)
    (end_ : Parser σ I V N) :
    Bounded.manyTill r c p end_ = core c p end_ (last r) (good r) (Rep.min r) (Rep.max r) := by
  obtain ⟨D, d, h, fin, lo, hi, hk, hf, h1, h2⟩ := manyTillWith_iter (T := T) hr p end_
  unfold Bounded.manyTill
  rw [hk, runIterTill_eq c d h fin p end_ (last r) (good r) lo hi (fun _ => True)
    (fun it w _ => hf.pre it w) (fun d w _ hd => ?_) hf.finE hf.finI (fun t s d w _ => hf.finS t s d w)
    trivial, h1, h2]
  obtain ⟨d', e1, e2, e3⟩ := hf.on d w hd
  exact ⟨d', e1, e2, e3, trivial⟩

theorem test_iff {end_ : Parser σ I V N} {n i w r w'} :
    test end_ n i w = .ok (r, w') ↔ Test end_ n i w r w' := by
  induction n generalizing w with
  | zero =>
    constructor
    · intro h; cases h; exact .none
    · intro h; cases h; rfl
  | succ n ih =>
    constructor
    · intro h
      unfold test at h
      cases he : end_ i w with
      | ok x =>
        obtain ⟨x, w1⟩ := x
        rw [he] at h
        cases x with
        | data b v => cases h; exact .hit he
        | error b e => exact .miss_error he (ih.mp h)
        | incomplete n => exact .miss_incomplete he (ih.mp h)
      | _ => rw [he] at h; cases h
    · intro h
      unfold test
      cases h with
      | hit he => rw [he]; rfl
      | miss_error he ht => rw [he]; exact ih.mpr ht
      | miss_incomplete he ht => rw [he]; exact ih.mpr ht

theorem test_crash {end_ : Parser σ I V N} {n i w} :
    (test end_ n i w = .panic ↔ ∃ k w1, k < n ∧ Test end_ k i w none w1 ∧ end_ i w1 = .panic) ∧
    (test end_ n i w = .ub ↔ ∃ k w1, k < n ∧ Test end_ k i w none w1 ∧ end_ i w1 = .ub) := by
  induction n generalizing w with
  | zero =>
    constructor <;> constructor
    · intro h; cases h
    · rintro ⟨k, _, h, _⟩; omega
    · intro h; cases h
    · rintro ⟨k, _, h, _⟩; omega
  | succ n ih =>
    cases he : end_ i w with
    | ok x =>
      obtain ⟨x, w1⟩ := x
      cases x with
      | data b v =>
        have : test end_ (n + 1) i w = .ok (some b, w1) := by unfold test; rw [he]; rfl
        rw [this]
        constructor <;> constructor
        · intro h; cases h
        · rintro ⟨k, w2, hk, ht, hc⟩
          cases ht with
          | none => rw [he] at hc; cases hc
          | miss_error h1 => rw [he] at h1; cases h1
          | miss_incomplete h1 => rw [he] at h1; cases h1
        · intro h; cases h
        · rintro ⟨k, w2, hk, ht, hc⟩
          cases ht with
          | none => rw [he] at hc; cases hc
          | miss_error h1 => rw [he] at h1; cases h1
          | miss_incomplete h1 => rw [he] at h1; cases h1
      | error b e =>
        have : test end_ (n + 1) i w = test end_ n i w1 := by
          conv => lhs; unfold test
          rw [he]; rfl
        rw [this]
        constructor
        · rw [ih.1]
          constructor
          · rintro ⟨k, w2, hk, ht, hc⟩; exact ⟨k + 1, w2, by omega, .miss_error he ht, hc⟩
          · rintro ⟨k, w2, hk, ht, hc⟩
            cases ht with
            | none => rw [he] at hc; cases hc
            | miss_error h1 h2 =>
              rw [he] at h1; cases h1; exact ⟨_, w2, by omega, h2, hc⟩
            | miss_incomplete h1 => rw [he] at h1; cases h1
        · rw [ih.2]
          constructor
          · rintro ⟨k, w2, hk, ht, hc⟩; exact ⟨k + 1, w2, by omega, .miss_error he ht, hc⟩
          · rintro ⟨k, w2, hk, ht, hc⟩
            cases ht with
            | none => rw [he] at hc; cases hc
            | miss_error h1 h2 =>
              rw [he] at h1; cases h1; exact ⟨_, w2, by omega, h2, hc⟩
            | miss_incomplete h1 => rw [he] at h1; cases h1
      | incomplete m =>
        have : test end_ (n + 1) i w = test end_ n i w1 := by
          conv => lhs; unfold test
          rw [he]; rfl
        rw [this]
        constructor
        · rw [ih.1]
          constructor
          · rintro ⟨k, w2, hk, ht, hc⟩; exact ⟨k + 1, w2, by omega, .miss_incomplete he ht, hc⟩
          · rintro ⟨k, w2, hk, ht, hc⟩
            cases ht with
            | none => rw [he] at hc; cases hc
            | miss_error h1 => rw [he] at h1; cases h1
            | miss_incomplete h1 h2 =>
              rw [he] at h1; cases h1; exact ⟨_, w2, by omega, h2, hc⟩
        · rw [ih.2]
          constructor
          · rintro ⟨k, w2, hk, ht, hc⟩; exact ⟨k + 1, w2, by omega, .miss_incomplete he ht, hc⟩
          · rintro ⟨k, w2, hk, ht, hc⟩
            cases ht with
            | none => rw [he] at hc; cases hc
            | miss_error h1 => rw [he] at h1; cases h1
            | miss_incomplete h1 h2 =>
              rw [he] at h1; cases h1; exact ⟨_, w2, by omega, h2, hc⟩
    | panic =>
      have : test end_ (n + 1) i w = .panic := by unfold test; rw [he]; rfl
      rw [this]
      constructor <;> constructor
      · intro _; exact ⟨0, w, by omega, .none, he⟩
      · intro _; rfl
      · intro h; cases h
      · rintro ⟨k, w2, hk, ht, hc⟩
        cases ht with
        | none => rw [he] at hc; cases hc
        | miss_error h1 => rw [he] at h1; cases h1
        | miss_incomplete h1 => rw [he] at h1; cases h1
    | ub =>
      have : test end_ (n + 1) i w = .ub := by unfold test; rw [he]; rfl
      rw [this]
      constructor <;> constructor
      · intro h; cases h
      · rintro ⟨k, w2, hk, ht, hc⟩
        cases ht with
        | none => rw [he] at hc; cases hc
        | miss_error h1 => rw [he] at h1; cases h1
        | miss_incomplete h1 => rw [he] at h1; cases h1
      · intro _; exact ⟨0, w, by omega, .none, he⟩
      · intro _; rfl
    | div =>
      have : test end_ (n + 1) i w = .div := by unfold test; rw [he]; rfl
      rw [this]
      constructor <;> constructor
      · intro h; cases h
      · rintro ⟨k, w2, hk, ht, hc⟩
        cases ht with
        | none => rw [he] at hc; cases hc
        | miss_error h1 => rw [he] at h1; cases h1
        | miss_incomplete h1 => rw [he] at h1; cases h1
      · intro h; cases h
      · rintro ⟨k, w2, hk, ht, hc⟩
        cases ht with
        | none => rw [he] at hc; cases hc
        | miss_error h1 => rw [he] at h1; cases h1
        | miss_incomplete h1 => rw [he] at h1; cases h1

theorem tries_eq {lo : Nat} {hi : Option Nat} {last k : Nat}
    (hlh : ∀ m, hi = some m → lo ≤ m) (hk : ∀ m, hi = some m → k ≤ m) :
    triesAt last (lo - k) (hi.map (· - k)) = tries lo hi last k := by
  unfold triesAt tries
  cases hi with
  | none =>
    simp
    by_cases h : k < lo
    · have : lo - k ≠ 0 := by omega
      simp [h, this]
    · have : lo - k = 0 := by omega
      simp [h, this]
  | some m =>
    have h1 := hlh m rfl
    have h2 := hk m rfl
    simp only [Option.map_some, Option.some.injEq]
    by_cases h : m = k
    · subst h
      have : lo - m = 0 := by omega
      simp [this]
    · have h3 : m - k ≠ 0 := by omega
      simp only [h3, h, if_false]
      by_cases h : k < lo
      · have : lo - k ≠ 0 := by omega
        simp [h, this]
      · have : lo - k = 0 := by omega
        simp [h, this]

theorem TillRun.le {p : Parser σ I U E} {end_ : Parser σ I V N} {lo hi last i w us i' w'}
    (h : TillRun p end_ lo hi last i w us i' w') : ∀ m, hi = some m → us.length ≤ m := by
  cases h with
  | nil => intro m _; exact Nat.zero_le _
  | snoc _ hb => intro m e; have := hb m e; simp; omega

theorem hi_map_zero {hi : Option Nat} {k : Nat} (hk : ∀ m, hi = some m → k ≤ m) :
    hi.map (· - k) = some 0 ↔ hi = some k := by
  cases hi with
  | none => simp
  | some m => have := hk m rfl; simp; omega

/-- Skipping over a run. -/
theorem run_loop {p : Parser σ I U E} {end_ : Parser σ I V N} {lo hi last g i w us i' w'}
    (hlh : ∀ m, hi = some m → lo ≤ m) (h : TillRun p end_ lo hi last i w us i' w') :
    loop (step (Collect.vec U) p end_ last g) ([], i, lo, hi) w =
      loop (step (Collect.vec U) p end_ last g)
        (us.reverse, i', lo - us.length, hi.map (· - us.length)) w' := by
  induction h with
  | nil => cases hi <;> simp
  | snoc hr hb ht hp ih =>
    rename_i us i1 w1 w2 i2 u w3
    rw [ih, loop_apply]
    have hle := TillRun.le hr
    have hne : ¬ (hi.map (· - us.length) = some 0) := Rep.hi_ne hb
    have ht' := test_iff.mpr ht
    rw [← tries_eq hlh hle] at ht'
    have hs : step (Collect.vec U) p end_ last g
        (us.reverse, i1, lo - us.length, hi.map (· - us.length)) w1 =
        .ok (.inl (u :: us.reverse, i2, lo - us.length - 1,
          (hi.map (· - us.length)).map (· - 1)), w3) := by
      simp only [step, ht', Res.bind_ok, hne, if_false, hp]
      rfl
    rw [hs]
    have e1 : lo - (us ++ [u]).length = lo - us.length - 1 := by simp; omega
    have e2 : hi.map (· - (us ++ [u]).length) = (hi.map (· - us.length)).map (· - 1) := by
      cases hi with
      | none => rfl
      | some m => simp; omega
    have e3 : (us ++ [u]).reverse = u :: us.reverse := by simp
    rw [e1, e2, e3]
    rfl

/-- Outcomes of a single step. -/
theorem core_vec_of_outcome {p : Parser σ I U E} {end_ : Parser σ I V N} {lo hi last i w o}
    (hlh : ∀ m, hi = some m → lo ≤ m)
    (h : TillOutcome p end_ lo hi last i w o) :
    core (Collect.vec U) p end_ last (fun lo _ => lo == 0) lo hi i w = o := by
  have start : ∀ {us i' w'}, TillRun p end_ lo hi last i w us i' w' →
      core (Collect.vec U) p end_ last (fun lo _ => lo == 0) lo hi i w =
        loop (step (Collect.vec U) p end_ last (fun lo _ => lo == 0))
          (us.reverse, i', lo - us.length, hi.map (· - us.length)) w' := by
    intro us i' w' hr
    exact run_loop hlh hr
  cases h with
  | done hr ht =>
    rename_i us i' w' i2 w2
    rw [start hr, loop_apply]
    have ht' := test_iff.mpr ht
    rw [← tries_eq hlh (TillRun.le hr)] at ht'
    have hl : lo - us.length = 0 := by
      unfold tries at ht
      by_cases hm : hi = some us.length
      · have := hlh _ hm; omega
      · rw [if_neg hm] at ht
        by_cases hl : us.length < lo
        · rw [if_pos hl] at ht; cases ht
        · omega
    rw [hl] at ht'
    simp [step, ht', hl, Collect.vec]
  | limit hr hm ht =>
    rename_i us i' w' w1
    rw [start hr, loop_apply]
    have ht' := test_iff.mpr ht
    rw [← tries_eq hlh (TillRun.le hr)] at ht'
    have := (hi_map_zero (TillRun.le hr)).mpr hm
    simp only [step, ht', Res.bind_ok]
    simp only [this, if_true]
    rfl
  | error hr hb ht hp =>
    rw [start hr, loop_apply]
    have ht' := test_iff.mpr ht
    rw [← tries_eq hlh (TillRun.le hr)] at ht'
    have hne := Rep.hi_ne hb
    simp [step, ht', hne, hp]
  | incomplete hr hb ht hp =>
    rw [start hr, loop_apply]
    have ht' := test_iff.mpr ht
    rw [← tries_eq hlh (TillRun.le hr)] at ht'
    have hne := Rep.hi_ne hb
    simp [step, ht', hne, hp]
  | panic_p hr hb ht hp =>
    rw [start hr, loop_apply]
    have ht' := test_iff.mpr ht
    rw [← tries_eq hlh (TillRun.le hr)] at ht'
    have hne := Rep.hi_ne hb
    simp [step, ht', hne, hp]
  | ub_p hr hb ht hp =>
    rw [start hr, loop_apply]
    have ht' := test_iff.mpr ht
    rw [← tries_eq hlh (TillRun.le hr)] at ht'
    have hne := Rep.hi_ne hb
    simp [step, ht', hne, hp]
  | panic_end hr hk ht hp =>
    rw [start hr, loop_apply]
    have ht' := test_crash.1.mpr ⟨_, _, hk, ht, hp⟩
    rw [← tries_eq hlh (TillRun.le hr)] at ht'
    simp only [step, ht', Res.bind_panic]
  | ub_end hr hk ht hp =>
    rw [start hr, loop_apply]
    have ht' := test_crash.2.mpr ⟨_, _, hk, ht, hp⟩
    rw [← tries_eq hlh (TillRun.le hr)] at ht'
    simp only [step, ht', Res.bind_ub]

/-- The common loop collecting into a vector meets the specification. -/
theorem core_vec_iff {p : Parser σ I U E} {end_ : Parser σ I V N} {lo hi last i w o}
    (hlh : ∀ m, hi = some m → lo ≤ m) (ho : o ≠ .div) :
    core (Collect.vec U) p end_ last (fun lo _ => lo == 0) lo hi i w = o ↔
      TillOutcome p end_ lo hi last i w o := by
  refine ⟨?_, core_vec_of_outcome hlh⟩
  intro h
  have h' : loop (step (Collect.vec U) p end_ last (fun lo _ => lo == 0)) ([], i, lo, hi) w = o := h
  have hrun := (loop_eq_iff ho).mp h'
  have key : ∀ s w1 o, LoopRun (step (Collect.vec U) p end_ last (fun lo _ => lo == 0)) s w1 o →
      ∀ us i1, s = (us.reverse, i1, lo - us.length, hi.map (· - us.length)) →
      TillRun p end_ lo hi last i w us i1 w1 → TillOutcome p end_ lo hi last i w o := by
    clear hrun h h' ho
    intro s w1 o hrun
    -- what a step does
    have stepCase : ∀ us i1 w1, TillRun p end_ lo hi last i w us i1 w1 → ∀ x,
        step (Collect.vec U) p end_ last (fun lo _ => lo == 0)
          (us.reverse, i1, lo - us.length, hi.map (· - us.length)) w1 = x →
        (x = .div) ∨ (∃ r w2, x = .ok (.inr r, w2) ∧ TillOutcome p end_ lo hi last i w (.ok (r, w2))) ∨
        (x = .panic ∧ TillOutcome p end_ lo hi last i w .panic) ∨
        (x = .ub ∧ TillOutcome p end_ lo hi last i w .ub) ∨
        (∃ u i2 w2, x = .ok (.inl ((us ++ [u]).reverse, i2, lo - (us ++ [u]).length,
            hi.map (· - (us ++ [u]).length)), w2) ∧
          TillRun p end_ lo hi last i w (us ++ [u]) i2 w2) := by
      intro us i1 w1 hr x hx
      have hle := TillRun.le hr
      simp only [step] at hx
      rw [tries_eq hlh hle] at hx
      cases ht : test end_ (tries lo hi last us.length) i1 w1 with
      | ok y =>
        obtain ⟨y, w2⟩ := y
        rw [ht] at hx
        have hT := test_iff.mp ht
        cases y with
        | some b =>
          have hl : lo - us.length = 0 := by
            unfold tries at hT
            by_cases hm : hi = some us.length
            · have := hlh _ hm; omega
            · rw [if_neg hm] at hT
              by_cases hl : us.length < lo
              · rw [if_pos hl] at hT; cases hT
              · omega
          simp only [Res.bind_ok, hl, beq_self_eq_true, if_true] at hx
          right; left
          refine ⟨_, w2, hx.symm, ?_⟩
          have : (Collect.vec U).finish us.reverse = us := by simp [Collect.vec]
          rw [this]
          exact .done hr hT
        | none =>
          simp only [Res.bind_ok] at hx
          by_cases hm : hi.map (· - us.length) = some 0
          · rw [if_pos hm] at hx
            right; left
            exact ⟨_, w2, hx.symm, .limit hr ((hi_map_zero hle).mp hm) hT⟩
          · rw [if_neg hm] at hx
            have hb : Below us.length hi := by
              intro m e
              have h1 := hle m e
              have h2 : hi ≠ some us.length := fun e => hm ((hi_map_zero hle).mpr e)
              rcases Nat.lt_or_ge us.length m with h | h
              · exact h
              · exact absurd (by rw [e]; congr 1; omega) h2
            cases hp : p i1 w2 with
            | ok r =>
              obtain ⟨r, w3⟩ := r
              rw [hp] at hx
              cases r with
              | data b v =>
                right; right; right; right
                refine ⟨v, b, w3, ?_, .snoc hr hb hT hp⟩
                rw [← hx]
                have e1 : lo - (us ++ [v]).length = lo - us.length - 1 := by simp; omega
                have e2 : hi.map (· - (us ++ [v]).length) = (hi.map (· - us.length)).map (· - 1) := by
                  cases hi with
                  | none => rfl
                  | some m => simp; omega
                have e3 : (us ++ [v]).reverse = v :: us.reverse := by simp
                rw [e1, e2, e3]
                rfl
              | error b e => right; left; exact ⟨_, w3, hx.symm, .error hr hb hT hp⟩
              | incomplete n => right; left; exact ⟨_, w3, hx.symm, .incomplete hr hb hT hp⟩
            | panic => rw [hp] at hx; right; right; left; exact ⟨hx.symm, .panic_p hr hb hT hp⟩
            | ub => rw [hp] at hx; right; right; right; left; exact ⟨hx.symm, .ub_p hr hb hT hp⟩
            | div => rw [hp] at hx; left; exact hx.symm
      | panic =>
        rw [ht] at hx
        obtain ⟨k, w2, hk, hT, hc⟩ := test_crash.1.mp ht
        right; right; left; exact ⟨hx.symm, .panic_end hr hk hT hc⟩
      | ub =>
        rw [ht] at hx
        obtain ⟨k, w2, hk, hT, hc⟩ := test_crash.2.mp ht
        right; right; right; left; exact ⟨hx.symm, .ub_end hr hk hT hc⟩
      | div => rw [ht] at hx; left; exact hx.symm
    induction hrun with
    | brk hb =>
      rintro us i1 rfl hr
      rcases stepCase us i1 _ hr _ hb with h | ⟨r, w2, h, ho⟩ | ⟨h, _⟩ | ⟨h, _⟩ | ⟨_, _, _, h, _⟩
      · cases h
      · cases h; exact ho
      all_goals cases h
    | panic hb =>
      rintro us i1 rfl hr
      rcases stepCase us i1 _ hr _ hb with h | ⟨r, w2, h, ho⟩ | ⟨h, ho⟩ | ⟨h, _⟩ | ⟨_, _, _, h, _⟩
      · cases h
      · cases h
      · exact ho
      all_goals cases h
    | ub hb =>
      rintro us i1 rfl hr
      rcases stepCase us i1 _ hr _ hb with h | ⟨r, w2, h, ho⟩ | ⟨h, ho⟩ | ⟨h, ho⟩ | ⟨_, _, _, h, _⟩
      · cases h
      · cases h
      · cases h
      · exact ho
      · cases h
    | cont hc _ ih =>
      rintro us i1 rfl hr
      rcases stepCase us i1 _ hr _ hc with h | ⟨r, w2, h, ho⟩ | ⟨h, _⟩ | ⟨h, _⟩ | ⟨u, i2, w2, h, hr'⟩
      · cases h
      · cases h
      · cases h
      · cases h
      · cases h
        exact ih _ _ rfl hr'
  exact key _ _ _ hrun [] i (by cases hi <;> simp) .nil

/-- `..n`: the success found by the common loop is turned into a panic unless the limit is reached. -/
theorem core_to_eq (p : Parser σ I U E) (end_ : Parser σ I V N) (last m : Nat) (i : Input I) (w : σ) :
    core (Collect.vec U) p end_ last (fun _ hi => hi == some 0) 0 (some m) i w =
      (core (Collect.vec U) p end_ last (fun lo _ => lo == 0) 0 (some m) i w >>= fun x =>
        match x.1 with
        | .data b us => if us.length = m then .ok (.data b us, x.2) else .panic
        | r => .ok (r, x.2)) := by
  refine loop_sim (f := step (Collect.vec U) p end_ last (fun _ hi => hi == some 0))
    (g := step (Collect.vec U) p end_ last (fun lo _ => lo == 0))
    (R := fun s1 w1 s2 w2 => w1 = w2 ∧ s1 = s2 ∧ s1.2.2.1 = 0 ∧
      ∃ k, s1.2.2.2 = some k ∧ List.length (α := U) s1.1 + k = m)
    (Q := fun r1 r2 => r1 = (r2 >>= fun x =>
        match x.1 with
        | .data b us => if us.length = m then .ok (.data b us, x.2) else .panic
        | r => .ok (r, x.2))) rfl ?_ (s1 := ([], i, 0, some m)) (s2 := ([], i, 0, some m))
      ⟨rfl, rfl, rfl, m, rfl, by simp⟩
  rintro ⟨a, i, lo, hi⟩ w _ _ ⟨rfl, rfl, rfl, k, rfl, hk⟩
  dsimp only at hk
  cases ht : test end_ (triesAt last 0 (some k)) i w with
  | ok x =>
    obtain ⟨x, w1⟩ := x
    cases x with
    | some b =>
      right
      rw [loop_apply, loop_apply]
      by_cases h0 : k = 0
      · subst h0
        have : (List.reverse (α := U) a).length = m :=
          (List.length_reverse (α := U) (as := a)).trans hk
        simp [step, ht, Collect.vec]
        exact this
      · have : (List.reverse (α := U) a).length ≠ m := by
          intro h
          have := (List.length_reverse (α := U) (as := a)).symm.trans h
          omega
        simp [step, ht, Collect.vec, h0]
        exact this
    | none =>
      by_cases h0 : k = 0
      · right
        subst h0
        rw [loop_apply, loop_apply]
        simp [step, ht]
      · cases hp : p i w1 with
        | ok r =>
          obtain ⟨r, w2⟩ := r
          cases r with
          | data b v =>
            left
            refine ⟨(v :: a, b, 0, some (k - 1)), w2, (v :: a, b, 0, some (k - 1)), w2, ?_, ?_,
              rfl, rfl, rfl, k - 1, rfl, ?_⟩
            · simp [step, ht, h0, hp, Collect.vec]
            · simp [step, ht, h0, hp, Collect.vec]
            · show List.length (α := U) (v :: a) + (k - 1) = m
              have := List.length_cons (α := U) (a := v) (as := a)
              omega
          | error b e => right; rw [loop_apply, loop_apply]; simp [step, ht, h0, hp]
          | incomplete n => right; rw [loop_apply, loop_apply]; simp [step, ht, h0, hp]
        | _ => right; rw [loop_apply, loop_apply]; simp [step, ht, h0, hp]
  | _ => right; rw [loop_apply, loop_apply]; simp [step, ht]

/-- A run before the minimum is a plain repetition. -/
theorem reps_loop {p : Parser σ I U E} {end_ : Parser σ I V N} {last g i w us i' w'}
    (h : Reps p i w us i' w') : ∀ {a : List U} {lo m : Nat}, us.length ≤ m → us.length ≤ lo →
    loop (step (Collect.vec U) p end_ last g) (a, i, lo, some m) w =
      loop (step (Collect.vec U) p end_ last g)
        (us.reverse ++ a, i', lo - us.length, some (m - us.length)) w' := by
  induction h with
  | nil => intro a lo m _ _; simp
  | cons h1 hrest ih =>
    rename_i i w i1 u w1 us i' w'
    intro a lo m hm hl
    simp at hm hl
    have h0 : m ≠ 0 := by omega
    have h1' : lo ≠ 0 := by omega
    have hs : step (Collect.vec U) p end_ last g (a, i, lo, some m) w =
        .ok (.inl (u :: a, i1, lo - 1, some (m - 1)), w1) := by
      simp [step, triesAt, h0, h1', test, h1, Collect.vec]
    rw [loop_apply, hs]
    have := ih (a := u :: a) (lo := lo - 1) (m := m - 1) (by omega) (by omega)
    rw [show lo - (u :: us).length = lo - 1 - us.length by simp; omega,
      show m - (u :: us).length = m - 1 - us.length by simp; omega,
      show (u :: us).reverse ++ a = us.reverse ++ u :: a by simp]
    exact this

end Till

end Chomp
