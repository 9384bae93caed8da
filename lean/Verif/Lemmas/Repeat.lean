import Verif.Lemmas.Basic
import Verif.Spec.Repeat

/-
All the repetition combinators run the same loop, `repCore`, with a lower and an optional upper
count. This file shows that, and describes the runs of `repCore`.
-/

namespace Chomp

/-- Lock-step simulation of two loops. -/
theorem loop_sim {f : S1 → M σ1 (S1 ⊕ R1)} {g : S2 → M σ2 (S2 ⊕ R2)}
    (R : S1 → σ1 → S2 → σ2 → Prop) (Q : Res (R1 × σ1) → Res (R2 × σ2) → Prop)
    (hdiv : Q .div .div)
    (hstep : ∀ s1 w1 s2 w2, R s1 w1 s2 w2 →
      (∃ s1' w1' s2' w2', f s1 w1 = .ok (.inl s1', w1') ∧ g s2 w2 = .ok (.inl s2', w2') ∧
        R s1' w1' s2' w2') ∨ Q (loop f s1 w1) (loop g s2 w2))
    {s1 : S1} {w1 : σ1} {s2 : S2} {w2 : σ2} (h : R s1 w1 s2 w2) :
    Q (loop f s1 w1) (loop g s2 w2) := by
  by_cases h1 : loop f s1 w1 = .div
  · by_cases h2 : loop g s2 w2 = .div
    · rw [h1, h2]; exact hdiv
    · have hr := loop_run s2 w2 h2
      clear h1 h2
      have key : ∀ s2 w2 o, LoopRun g s2 w2 o → ∀ s1 w1, R s1 w1 s2 w2 →
          Q (loop f s1 w1) (loop g s2 w2) := by
        intro s2 w2 o hr
        induction hr with
        | cont hc _ ih =>
          intro s1 w1 h
          rcases hstep _ _ _ _ h with ⟨s1', w1', s2', w2', e1, e2, h'⟩ | hq
          · rw [hc] at e2; cases e2
            have := ih _ _ h'
            rw [loop_apply f, e1, loop_apply g, hc]; exact this
          · exact hq
        | brk hb =>
          intro s1 w1 h
          rcases hstep _ _ _ _ h with ⟨s1', w1', s2', w2', e1, e2, h'⟩ | hq
          · rw [hb] at e2; cases e2
          · exact hq
        | panic hb =>
          intro s1 w1 h
          rcases hstep _ _ _ _ h with ⟨s1', w1', s2', w2', e1, e2, h'⟩ | hq
          · rw [hb] at e2; cases e2
          · exact hq
        | ub hb =>
          intro s1 w1 h
          rcases hstep _ _ _ _ h with ⟨s1', w1', s2', w2', e1, e2, h'⟩ | hq
          · rw [hb] at e2; cases e2
          · exact hq
      exact key s2 w2 _ hr s1 w1 h
  · have hr := loop_run s1 w1 h1
    clear h1
    have key : ∀ s1 w1 o, LoopRun f s1 w1 o → ∀ s2 w2, R s1 w1 s2 w2 →
        Q (loop f s1 w1) (loop g s2 w2) := by
      intro s1 w1 o hr
      induction hr with
      | cont hc _ ih =>
        intro s2 w2 h
        rcases hstep _ _ _ _ h with ⟨s1', w1', s2', w2', e1, e2, h'⟩ | hq
        · rw [hc] at e1; cases e1
          have := ih _ _ h'
          rw [loop_apply f, hc, loop_apply g, e2]; exact this
        · exact hq
      | brk hb =>
        intro s2 w2 h
        rcases hstep _ _ _ _ h with ⟨s1', w1', s2', w2', e1, e2, h'⟩ | hq
        · rw [hb] at e1; cases e1
        · exact hq
      | panic hb =>
        intro s2 w2 h
        rcases hstep _ _ _ _ h with ⟨s1', w1', s2', w2', e1, e2, h'⟩ | hq
        · rw [hb] at e1; cases e1
        · exact hq
      | ub hb =>
        intro s2 w2 h
        rcases hstep _ _ _ _ h with ⟨s1', w1', s2', w2', e1, e2, h'⟩ | hq
        · rw [hb] at e1; cases e1
        · exact hq
    exact key s1 w1 _ hr s2 w2 h

/-- Invariant of a single loop. -/
theorem loop_inv {f : S → M σ (S ⊕ R)} (P : S → σ → Prop) (Q : Res (R × σ) → Prop)
    (hdiv : Q .div)
    (hstep : ∀ s w, P s w →
      (∃ s' w', f s w = .ok (.inl s', w') ∧ P s' w') ∨ Q (loop f s w))
    {s : S} {w : σ} (h : P s w) : Q (loop f s w) :=
  loop_sim (f := f) (g := f) (fun s1 w1 s2 w2 => s1 = s2 ∧ w1 = w2 ∧ P s1 w1)
    (fun r _ => Q r) hdiv
    (by
      rintro s w _ _ ⟨rfl, rfl, hp⟩
      rcases hstep s w hp with ⟨s', w', e, hp'⟩ | hq
      · exact .inl ⟨s', w', s', w', e, e, rfl, rfl, hp'⟩
      · exact .inr hq)
    ⟨rfl, rfl, h⟩

namespace Rep

/-- The result once no further item will be read, all `hi` items having been read or the last
attempt having been incomplete by `n`. -/
def final (t : T) (s : Input I) (lo : Nat) (hi : Option Nat) (n : Nat) : ParseResult I T E :=
  if lo = 0 ∧ (hi = some 0 ∨ s.mode = .endOfInput) then .data s t else .incomplete n

/-- One iteration. -/
def step (c : Collect U T) (p : Parser σ I U E) (s : c.Acc × Input I × Nat × Option Nat) :
    M σ ((c.Acc × Input I × Nat × Option Nat) ⊕ ParseResult I T E) := fun w =>
  let (a, i, lo, hi) := s
  if hi = some 0 then .ok (.inr (final (c.finish a) i lo hi 1), w)
  else p i w >>= fun r =>
    match r.1 with
    | .data b v =>
      match c.feed a v with
      | .inl a' => .ok (.inl (a', b, lo - 1, hi.map (· - 1)), r.2)
      | .inr t => .ok (.inr (final t b (lo - 1) (hi.map (· - 1)) 1), r.2)
    | .error b e => .ok (.inr (if lo = 0 then .data i (c.finish a) else .error b e), r.2)
    | .incomplete n => .ok (.inr (final (c.finish a) i lo hi n), r.2)

/-- The common loop. -/
def core (c : Collect U T) (p : Parser σ I U E) (lo : Nat) (hi : Option Nat) : Parser σ I T E :=
  fun i w => match c.start with
    | .inr t => .ok (final t i lo hi 1, w)
    | .inl a => loop (step c p) (a, i, lo, hi) w

open Bounded in
theorem iterNext_eq (h : Hooks σ D) (p : Parser σ I U E) (it : Iter I E D)
    (w : σ) : iterNext h p it w =
      if h.pre it.data = true then .ok ((none, it), w)
      else p it.buf w >>= fun r => match r.1 with
        | .data b v => h.on it.data r.2 >>= fun d => .ok ((some v, { it with buf := b, data := d.1 }), d.2)
        | .error b e => .ok ((none, { it with state := .error b e }), r.2)
        | .incomplete n => .ok ((none, { it with state := .incomplete n }), r.2) := by
  unfold iterNext
  split
  · rfl
  · rw [M.bind_apply]
    congr 1
    funext r
    obtain ⟨r, w'⟩ := r
    cases r <;> rfl

open Bounded in
/-- `run_iter!` with counters is `core`. -/
theorem runIter_eq (c : Collect U T) (d : D) (h : Hooks σ D)
    (fin : T → Input I → D → EndState I E → ParseResult I T E) (p : Parser σ I U E)
    (lo : D → Nat) (hi : D → Option Nat)
    (hpre : ∀ d, h.pre d = true ↔ hi d = some 0)
    (hon : ∀ d w, hi d ≠ some 0 →
      ∃ d', h.on d w = .ok (d', w) ∧ lo d' = lo d - 1 ∧ hi d' = (hi d).map (· - 1))
    (hfinE : ∀ t s d b e, hi d ≠ some 0 →
      fin t s d (.error b e) = if lo d = 0 then .data s t else .error b e)
    (hfinI : ∀ t s d n, fin t s d (.incomplete n) = final t s (lo d) (hi d) n) :
    runIter c.driver d h fin p = core c p (lo d) (hi d) := by
  funext i w
  unfold runIter core Collect.driver fromIter
  cases c.start with
  | inr t => simp [M.bind_apply, hfinI]
  | inl a =>
    rw [M.bind_apply]
    dsimp only
    refine loop_sim (s1 := (a, (⟨.incomplete 1, i, d⟩ : Iter I E D)))
      (R := fun (s1 : c.Acc × Iter I E D) w1 (s2 : c.Acc × Input I × Nat × Option Nat) w2 =>
        w1 = w2 ∧ s1.2.state = .incomplete 1 ∧
          s2 = (s1.1, s1.2.buf, lo s1.2.data, hi s1.2.data))
      (Q := fun r1 r2 => (r1 >>= fun q => match q.1 with
        | (result, (it : Iter I E D)) =>
          (pure (fin result it.buf it.data it.state) : M σ _) q.2) = r2)
      rfl ?_ ⟨rfl, rfl, rfl⟩
    rintro ⟨a, st, i, d⟩ w _ _ ⟨rfl, hst, rfl⟩
    dsimp only at hst; subst hst
    by_cases hp : h.pre d = true
    · right
      have hh := (hpre d).mp hp
      rw [loop_apply, loop_apply]
      simp [M.bind_apply, iterNext_eq, hp, step, hh, hfinI]
    · have hh : hi d ≠ some 0 := fun e => hp ((hpre d).mpr e)
      cases hr : p i w with
      | ok r =>
        obtain ⟨r, w1⟩ := r
        cases r with
        | data b v =>
          obtain ⟨d', hd', hlo, hhi⟩ := hon d w1 hh
          cases hf : c.feed a v with
          | inl a' =>
            left
            refine ⟨(a', ⟨.incomplete 1, b, d'⟩), w1, (a', b, lo d - 1, (hi d).map (· - 1)), w1,
              ?_, ?_, rfl, rfl, ?_⟩
            · simp [M.bind_apply, iterNext_eq, hp, hr, hd', hf]
            · simp [step, hh, hr, hf]
            · simp [hlo, hhi]
          | inr t =>
            right
            rw [loop_apply, loop_apply]
            simp [M.bind_apply, iterNext_eq, hp, hr, hd', hf, step, hh, hfinI, hlo, hhi]
        | error b e =>
          right
          rw [loop_apply, loop_apply]
          simp [M.bind_apply, iterNext_eq, hp, hr, step, hh, hfinE]
        | incomplete n =>
          right
          rw [loop_apply, loop_apply]
          simp [M.bind_apply, iterNext_eq, hp, hr, step, hh, hfinI]
      | _ =>
        right
        rw [loop_apply, loop_apply]
        simp [M.bind_apply, iterNext_eq, hp, hr, step, hh]

/-- Least number of items. -/
def min : Bounded.Range → Nat
  | .range a _ => a
  | .from_ n => n
  | .full => 0
  | .to _ => 0
  | .exactly n => n

/-- Largest number of items. -/
def max : Bounded.Range → Option Nat
  | .range _ b => some (b - 1)
  | .from_ _ => none
  | .full => none
  | .to n => some (n - 1)
  | .exactly n => some n

/-- The assertion at the start. -/
def ok : Bounded.Range → Prop
  | .range a b => a ≤ b
  | _ => True

theorem maxOf_eq (b : Nat) : Bounded.maxOf b = b - 1 := by
  unfold Bounded.maxOf
  omega

theorem decSat_ok (d : Nat) (w : σ) : Bounded.decSat d w = .ok (d - 1, w) := by
  unfold Bounded.decSat
  by_cases h : d = 0
  · subst h; rfl
  · simp [h, usub_ok (show 1 ≤ d by omega)]

theorem dec_ok {d : Nat} (h : d ≠ 0) (w : σ) : Bounded.dec d w = .ok (d - 1, w) := by
  unfold Bounded.dec
  simp [usub_ok (show 1 ≤ d by omega)]

/-- What the `many` of every range has in common. `lo` and `hi` are the least and the largest number of
items still to come. -/
structure Facts (h : Bounded.Hooks σ D) (fin : T → Input I → D → Bounded.EndState I E → ParseResult I T E)
    (lo : D → Nat) (hi : D → Option Nat) : Prop where
  hint : ∀ d, h.sizeHint d = (lo d, hi d)
  pre : ∀ d, h.pre d = true ↔ hi d = some 0
  on : ∀ d w, hi d ≠ some 0 →
    ∃ d', h.on d w = .ok (d', w) ∧ lo d' = lo d - 1 ∧ hi d' = (hi d).map (· - 1)
  finE : ∀ t s d b e, fin t s d (.error b e) = if lo d = 0 then .data s t else .error b e
  finI : ∀ t s d n, fin t s d (.incomplete n) = final t s (lo d) (hi d) n
  finD : ∀ t s d st s' t', fin t s d st = .data s' t' → s' = s ∧ t' = t ∧ lo d = 0

/-- `bounded::many` with any collection. -/
theorem manyWith_iter {r : Bounded.Range} (hr : ok r) (p : Parser σ I U E) :
    ∃ (D : Type) (d : D) (h : Bounded.Hooks σ D)
      (fin : T → Input I → D → Bounded.EndState I E → ParseResult I T E)
      (lo : D → Nat) (hi : D → Option Nat),
      (∀ k : Driver σ U T, Bounded.manyWith r k p = Bounded.runIter k d h fin p) ∧
      Facts h fin lo hi ∧ lo d = min r ∧ hi d = max r := by
  cases r with
  | range a b =>
    have hab : a ≤ b := hr
    refine ⟨_, (a, Bounded.maxOf b), Bounded.hooksRange, _, fun d => d.1, fun d => some d.2,
      fun k => funext fun i => if_pos hab, ⟨fun _ => rfl, ?_, ?_, ?_, ?_, ?_⟩, rfl,
      by simp [max, maxOf_eq]⟩
    · simp [Bounded.hooksRange]
    · intro d w h
      refine ⟨(d.1 - 1, d.2 - 1), ?_, rfl, rfl⟩
      unfold Bounded.hooksRange
      dsimp only
      rw [M.bind_ok (decSat_ok _ _), M.bind_ok (dec_ok (by simpa using h) _)]; rfl
    · rintro t s ⟨x, y⟩ b e
      cases x <;> cases y <;> simp_all [Input.ret, Input.err, Input.replace]
    · rintro t ⟨m, s⟩ ⟨x, y⟩ n
      cases x <;> cases y <;> cases m <;>
        simp_all [Input.ret, Input.isLastSlice, Input.incomplete, final]
    · rintro t ⟨m, s⟩ ⟨x, y⟩ st s' t' h
      cases x <;> cases y <;> cases m <;> cases st <;>
        simp_all [Input.ret, Input.err, Input.replace, Input.isLastSlice, Input.incomplete]
  | from_ n =>
    refine ⟨_, n, Bounded.hooksFrom, _, fun d => d, fun d => none, fun k => Bounded.manyFrom.eq_1 n k p, ⟨fun _ => rfl, ?_, ?_, ?_, ?_, ?_⟩, rfl, rfl⟩
    · simp [Bounded.hooksFrom]
    · intro d w h
      exact ⟨d - 1, decSat_ok _ _, rfl, rfl⟩
    · rintro t s d b e
      cases d <;> simp_all [Input.ret, Input.err, Input.replace]
    · rintro t ⟨m, s⟩ d n
      cases d <;> cases m <;> simp_all [Input.ret, Input.isLastSlice, Input.incomplete, final]
    · rintro t ⟨m, s⟩ d st s' t' h
      cases d <;> cases m <;> cases st <;>
        simp_all [Input.ret, Input.err, Input.replace, Input.isLastSlice, Input.incomplete]
  | full =>
    refine ⟨_, (), Bounded.hooksFull, _, fun d => 0, fun d => none, fun k => Bounded.manyFull.eq_1 k p, ⟨fun _ => rfl, ?_, ?_, ?_, ?_, ?_⟩, rfl, rfl⟩
    · simp [Bounded.hooksFull]
    · intro d w h
      exact ⟨(), rfl, rfl, rfl⟩
    · rintro t s d b e
      simp_all [Input.ret]
    · rintro t ⟨m, s⟩ d n
      cases m <;> simp_all [Input.ret, Input.isLastSlice, Input.incomplete, final]
    · rintro t ⟨m, s⟩ d st s' t' h
      cases m <;> cases st <;>
        simp_all [Input.ret, Input.isLastSlice, Input.incomplete]
  | to n =>
    refine ⟨_, Bounded.maxOf n, Bounded.hooksTo, _, fun d => 0, fun d => some d, fun k => Bounded.manyTo.eq_1 n k p,
      ⟨fun _ => rfl, ?_, ?_, ?_, ?_, ?_⟩, rfl, by simp [max, maxOf_eq]⟩
    · simp [Bounded.hooksTo]
    · intro d w h
      exact ⟨d - 1, dec_ok (by simpa using h) _, rfl, rfl⟩
    · rintro t s d b e
      cases d <;> simp_all [Input.ret]
    · rintro t ⟨m, s⟩ d n
      cases d <;> cases m <;> simp_all [Input.ret, Input.isLastSlice, Input.incomplete, final]
    · rintro t ⟨m, s⟩ d st s' t' h
      cases d <;> cases m <;> cases st <;>
        simp_all [Input.ret, Input.isLastSlice, Input.incomplete]
  | exactly n =>
    refine ⟨_, n, Bounded.hooksExactly, _, fun d => d, fun d => some d, fun k => Bounded.manyExactly.eq_1 n k p, ⟨fun _ => rfl, ?_, ?_, ?_, ?_, ?_⟩, rfl, rfl⟩
    · simp [Bounded.hooksExactly]
    · intro d w h
      exact ⟨d - 1, dec_ok (by simpa using h) _, rfl, rfl⟩
    · rintro t s d b e
      cases d <;> simp_all [Input.ret, Input.err, Input.replace]
    · rintro t ⟨m, s⟩ d n
      cases d <;> cases m <;> simp_all [Input.ret, Input.incomplete, final]
    · rintro t ⟨m, s⟩ d st s' t' h
      cases d <;> cases m <;> cases st <;>
        simp_all [Input.ret, Input.err, Input.replace, Input.incomplete]

/-- `bounded::many` is the common loop. -/
theorem many_eq {r : Bounded.Range} (hr : ok r) (c : Collect U T) (p : Parser σ I U E) :
    Bounded.many r c p = core c p (min r) (max r) := by
  obtain ⟨D, d, h, fin, lo, hi, hk, hf, h1, h2⟩ := manyWith_iter (T := T) hr p
  unfold Bounded.many
  rw [hk, runIter_eq c d h fin p lo hi hf.pre hf.on (fun t s d b e _ => hf.finE t s d b e) hf.finI, h1, h2]

/-- A collection which ignores the items: what `skip_many` does. -/
def unit (U : Type) : Collect U Unit where
  Acc := Unit
  start := .inl ()
  feed _ _ := .inl ()
  finish _ := ()

/-- Loops whose body makes the same steps and breaks with the same result are equal. -/
theorem loop_eq_of {f : S1 → M σ (S1 ⊕ R)} {g : S2 → M σ (S2 ⊕ R)} (rel : S1 → S2 → Prop)
    (hstep : ∀ s1 s2 w, rel s1 s2 →
      (∃ s1' s2' w', f s1 w = .ok (.inl s1', w') ∧ g s2 w = .ok (.inl s2', w') ∧ rel s1' s2') ∨
      (∃ r w', f s1 w = .ok (.inr r, w') ∧ g s2 w = .ok (.inr r, w')) ∨
      (f s1 w = .panic ∧ g s2 w = .panic) ∨ (f s1 w = .ub ∧ g s2 w = .ub) ∨
      (f s1 w = .div ∧ g s2 w = .div))
    {s1 : S1} {s2 : S2} (h : rel s1 s2) (w : σ) : loop f s1 w = loop g s2 w := by
  refine loop_sim (R := fun s1 w1 s2 w2 => w1 = w2 ∧ rel s1 s2) (Q := Eq) rfl ?_ ⟨rfl, h⟩
  rintro s1 w s2 _ ⟨rfl, h⟩
  rcases hstep s1 s2 w h with ⟨s1', s2', w', e1, e2, h'⟩ | ⟨r, w', e1, e2⟩ | ⟨e1, e2⟩ | ⟨e1, e2⟩ |
    ⟨e1, e2⟩
  · exact .inl ⟨s1', w', s2', w', e1, e2, rfl, h'⟩
  all_goals right; rw [loop_apply, e1, loop_apply, e2]; rfl

/-- The ranges for which `skip_many` agrees with `many`. -/
def skipOk : Bounded.Range → Prop
  | .range a b => a ≤ b - 1
  | .exactly _ => False
  | _ => True

theorem skipMany_eq {r : Bounded.Range} (hr : skipOk r) (p : Parser σ I U E) :
    Bounded.skipMany r p = core (unit U) p (min r) (max r) := by
  funext i w
  cases r with
  | range a b =>
    have hab : a ≤ b - 1 := hr
    have hab' : a ≤ b := by omega
    simp only [Bounded.skipMany, Bounded.skipManyRange, hab', if_true, core, unit, min, max]
    rw [maxOf_eq]
    refine loop_eq_of (rel := fun s1 s2 => s2 = ((), s1.1, s1.2.1, some s1.2.2) ∧ s1.2.1 ≤ s1.2.2)
      ?_ ⟨rfl, hab⟩ w
    rintro ⟨⟨m, b⟩, lo, hi⟩ _ w ⟨rfl, hle⟩
    dsimp only at hle
    by_cases h0 : hi = 0
    · subst h0
      have : lo = 0 := by omega
      subst this
      right; left
      exact ⟨_, _, rfl, by simp [step, final, Input.ret]⟩
    · cases hp : p ⟨m, b⟩ w with
      | ok x =>
        obtain ⟨x, w1⟩ := x
        cases x with
        | data b' v =>
          left
          refine ⟨(b', lo - 1, hi - 1), _, w1, ?_, by simp [step, h0, hp], rfl, by simp; omega⟩
          simp [h0, M.bind_apply, hp, decSat_ok, dec_ok h0, M.map_apply]
        | error b' e =>
          right; left
          by_cases hl : lo = 0 <;>
            exact ⟨_, w1, by simp [h0, M.bind_apply, hp, hl]; rfl,
              by simp [step, h0, hp, hl, Input.ret, Input.err, Input.replace]⟩
        | incomplete n =>
          right; left
          cases m <;> by_cases hl : lo = 0 <;>
            exact ⟨_, w1, by simp [h0, M.bind_apply, hp, hl, Input.isLastSlice]; rfl,
              by simp [step, h0, hp, hl, Input.ret, Input.incomplete, final]⟩
      | panic => right; right; left; exact ⟨by simp [h0, M.bind_apply, hp], by simp [step, h0, hp]⟩
      | ub =>
        right; right; right; left; exact ⟨by simp [h0, M.bind_apply, hp], by simp [step, h0, hp]⟩
      | div =>
        right; right; right; right; exact ⟨by simp [h0, M.bind_apply, hp], by simp [step, h0, hp]⟩
  | from_ n =>
    simp only [Bounded.skipMany, Bounded.skipManyFrom, core, unit, min, max]
    refine loop_eq_of (rel := fun s1 s2 => s2 = ((), s1.1, s1.2, none)) ?_ rfl w
    rintro ⟨⟨m, b⟩, lo⟩ _ w rfl
    cases hp : p ⟨m, b⟩ w with
    | ok x =>
      obtain ⟨x, w1⟩ := x
      cases x with
      | data b' v =>
        left
        refine ⟨(b', lo - 1), _, w1, ?_, by simp [step, hp], rfl⟩
        simp [M.bind_apply, hp, decSat_ok, M.map_apply]
      | error b' e =>
        right; left
        by_cases hl : lo = 0 <;>
          exact ⟨_, w1, by simp [M.bind_apply, hp, hl]; rfl,
            by simp [step, hp, hl, Input.ret, Input.err, Input.replace]⟩
      | incomplete n =>
        right; left
        cases m <;> by_cases hl : lo = 0 <;>
          exact ⟨_, w1, by simp [M.bind_apply, hp, hl, Input.isLastSlice]; rfl,
            by simp [step, hp, hl, Input.ret, Input.incomplete, final]⟩
    | panic => right; right; left; exact ⟨by simp [M.bind_apply, hp], by simp [step, hp]⟩
    | ub => right; right; right; left; exact ⟨by simp [M.bind_apply, hp], by simp [step, hp]⟩
    | div => right; right; right; right; exact ⟨by simp [M.bind_apply, hp], by simp [step, hp]⟩
  | full =>
    simp only [Bounded.skipMany, Bounded.skipManyFull, core, unit, min, max]
    refine loop_eq_of (rel := fun s1 s2 => s2 = ((), s1, 0, none)) ?_ rfl w
    rintro ⟨m, b⟩ _ w rfl
    cases hp : p ⟨m, b⟩ w with
    | ok x =>
      obtain ⟨x, w1⟩ := x
      cases x with
      | data b' v =>
        left
        exact ⟨b', _, w1, by simp [M.bind_apply, hp], by simp [step, hp], rfl⟩
      | error b' e =>
        right; left
        exact ⟨_, w1, by simp [M.bind_apply, hp]; rfl, by simp [step, hp, Input.ret]⟩
      | incomplete n =>
        right; left
        cases m <;>
          exact ⟨_, w1, by simp [M.bind_apply, hp, Input.isLastSlice]; rfl,
            by simp [step, hp, Input.ret, Input.incomplete, final]⟩
    | panic => right; right; left; exact ⟨by simp [M.bind_apply, hp], by simp [step, hp]⟩
    | ub => right; right; right; left; exact ⟨by simp [M.bind_apply, hp], by simp [step, hp]⟩
    | div => right; right; right; right; exact ⟨by simp [M.bind_apply, hp], by simp [step, hp]⟩
  | to n =>
    simp only [Bounded.skipMany, Bounded.skipManyTo, core, unit, min, max]
    rw [maxOf_eq]
    refine loop_eq_of (rel := fun s1 s2 => s2 = ((), s1.1, 0, some s1.2)) ?_ rfl w
    rintro ⟨⟨m, b⟩, hi⟩ _ w rfl
    by_cases h0 : hi = 0
    · subst h0
      right; left
      exact ⟨_, _, rfl, by simp [step, final, Input.ret]⟩
    · cases hp : p ⟨m, b⟩ w with
      | ok x =>
        obtain ⟨x, w1⟩ := x
        cases x with
        | data b' v =>
          left
          refine ⟨(b', hi - 1), _, w1, ?_, by simp [step, h0, hp], rfl⟩
          simp [h0, M.bind_apply, hp, dec_ok h0, M.map_apply]
        | error b' e =>
          right; left
          exact ⟨_, w1, by simp [h0, M.bind_apply, hp]; rfl, by simp [step, h0, hp, Input.ret]⟩
        | incomplete n =>
          right; left
          cases m <;>
            exact ⟨_, w1, by simp [h0, M.bind_apply, hp, Input.isLastSlice]; rfl,
              by simp [step, h0, hp, Input.ret, Input.incomplete, final]⟩
      | panic => right; right; left; exact ⟨by simp [h0, M.bind_apply, hp], by simp [step, h0, hp]⟩
      | ub =>
        right; right; right; left; exact ⟨by simp [h0, M.bind_apply, hp], by simp [step, h0, hp]⟩
      | div =>
        right; right; right; right; exact ⟨by simp [h0, M.bind_apply, hp], by simp [step, h0, hp]⟩
  | exactly n => exact absurd hr id

theorem skipManyExactly_eq (n : Nat) (p : Parser σ I U E)
    (hp0 : ∀ i w w', p i w ≠ .ok (.incomplete 0, w')) :
    Bounded.skipMany (.exactly n) p = core (unit U) p n (some n) := by
  funext i w
  simp only [Bounded.skipMany, Bounded.skipManyExactly, core, unit]
  refine loop_eq_of (rel := fun s1 s2 => s2 = ((), s1.1, s1.2, some s1.2)) ?_ rfl w
  rintro ⟨⟨m, b⟩, hi⟩ _ w rfl
  by_cases h0 : hi = 0
  · subst h0
    right; left
    exact ⟨_, _, rfl, by simp [step, final, Input.ret]⟩
  · cases hp : p ⟨m, b⟩ w with
    | ok x =>
      obtain ⟨x, w1⟩ := x
      cases x with
      | data b' v =>
        left
        refine ⟨(b', hi - 1), _, w1, ?_, by simp [step, h0, hp], rfl⟩
        simp [h0, M.bind_apply, hp, dec_ok h0, M.map_apply]
      | error b' e =>
        right; left
        exact ⟨_, w1, by simp [h0, M.bind_apply, hp]; rfl,
          by simp [step, h0, hp, Input.err, Input.replace]⟩
      | incomplete n =>
        right; left
        have hn : n ≠ 0 := fun e => hp0 _ _ _ (e ▸ hp)
        exact ⟨_, w1, by simp [h0, M.bind_apply, hp, hn]; rfl,
          by simp [step, h0, hp, Input.incomplete, final]⟩
    | panic => right; right; left; exact ⟨by simp [h0, M.bind_apply, hp], by simp [step, h0, hp]⟩
    | ub =>
      right; right; right; left; exact ⟨by simp [h0, M.bind_apply, hp], by simp [step, h0, hp]⟩
    | div =>
      right; right; right; right; exact ⟨by simp [h0, M.bind_apply, hp], by simp [step, h0, hp]⟩

end Rep

end Chomp

namespace Chomp

namespace Spec.Reps

theorem snoc {p : Parser σ I U E} {i w us i' w' u i2 w2} (h : Reps p i w us i' w')
    (h2 : p i' w' = .ok (.data i2 u, w2)) : Reps p i w (us ++ [u]) i2 w2 := by
  induction h with
  | nil => exact .cons h2 .nil
  | cons h1 _ ih => exact .cons h1 (ih h2)

theorem det {p : Parser σ I U E} {i w us i1 w1} (h : Reps p i w us i1 w1) :
    ∀ {vs i2 w2}, Reps p i w vs i2 w2 → us.length = vs.length → us = vs ∧ i1 = i2 ∧ w1 = w2 := by
  induction h with
  | nil =>
    intro vs i2 w2 h2 hl
    cases h2 with
    | nil => exact ⟨rfl, rfl, rfl⟩
    | cons => simp at hl
  | cons h1 _ ih =>
    intro vs i2 w2 h2 hl
    cases h2 with
    | nil => simp at hl
    | cons h3 h4 =>
      rw [h1] at h3; cases h3
      obtain ⟨rfl, rfl, rfl⟩ := ih h4 (by simpa using hl)
      exact ⟨rfl, rfl, rfl⟩

theorem take {p : Parser σ I U E} {i w us i1 w1} (h : Reps p i w us i1 w1) :
    ∀ n, n ≤ us.length → ∃ i2 w2, Reps p i w (us.take n) i2 w2 := by
  induction h with
  | nil => intro n _; exact ⟨_, _, by simpa using .nil⟩
  | cons h1 _ ih =>
    intro n hn
    cases n with
    | zero => exact ⟨_, _, .nil⟩
    | succ n =>
      obtain ⟨i2, w2, h⟩ := ih n (by simpa using hn)
      exact ⟨i2, w2, .cons h1 h⟩

/-- Either `p` succeeds `n` times in a row, or it stops succeeding before. -/
theorem dichotomy (p : Parser σ I U E) (i : Input I) (w : σ) (n : Nat) :
    (∃ us i' w', us.length = n ∧ Reps p i w us i' w') ∨
    (∃ us i' w', us.length < n ∧ Reps p i w us i' w' ∧ ∀ i2 u w2, p i' w' ≠ .ok (.data i2 u, w2)) := by
  induction n with
  | zero => exact .inl ⟨[], i, w, rfl, .nil⟩
  | succ n ih =>
    rcases ih with ⟨us, i', w', hl, hr⟩ | ⟨us, i', w', hl, hr, hn⟩
    · by_cases h : ∃ i2 u w2, p i' w' = .ok (.data i2 u, w2)
      · obtain ⟨i2, u, w2, h⟩ := h
        exact .inl ⟨us ++ [u], i2, w2, by simp [hl], hr.snoc h⟩
      · exact .inr ⟨us, i', w', by omega, hr, fun i2 u w2 e => h ⟨i2, u, w2, e⟩⟩
    · exact .inr ⟨us, i', w', by omega, hr, hn⟩

end Spec.Reps

open Spec

theorem Spec.RepOutcome.data_inv {p : Parser σ I U E} {lo hi i w i' us w''}
    (h : RepOutcome p lo hi i w (.ok (.data i' us, w''))) :
    ∃ w', Reps p i w us i' w' ∧
      ((hi = some us.length ∧ w'' = w') ∨
       (Below us.length hi ∧ lo ≤ us.length ∧
        ((∃ b e, p i' w' = .ok (.error b e, w'')) ∨
         (i'.mode = .endOfInput ∧ ∃ n, p i' w' = .ok (.incomplete n, w''))))) := by
  cases h with
  | full hr hm => exact ⟨_, hr, .inl ⟨hm, rfl⟩⟩
  | stop_error hr hb hp hl => exact ⟨_, hr, .inr ⟨hb, hl, .inl ⟨_, _, hp⟩⟩⟩
  | stop_last hr hb hp hl hm => exact ⟨_, hr, .inr ⟨hb, hl, .inr ⟨hm, _, hp⟩⟩⟩

namespace Rep

/-- Feeding several items to a collection, `none` if it stops. -/
def feeds (c : Collect U T) : c.Acc → List U → Option c.Acc
  | a, [] => some a
  | a, u :: us =>
    match c.feed a u with
    | .inl a' => feeds c a' us
    | .inr _ => none

theorem feeds_vec (us acc : List U) : feeds (Collect.vec U) acc us = some (us.reverse ++ acc) := by
  induction us generalizing acc with
  | nil => rfl
  | cons u us ih => exact (ih (u :: acc)).trans (by simp; rfl)

theorem feeds_unit (us : List U) : feeds (unit U) () us = some () := by
  induction us with
  | nil => rfl
  | cons u us ih => simp [feeds, unit] at *; try exact ih

/-- Skipping over successful applications. -/
theorem reps_loop {c : Collect U T} {p : Parser σ I U E} {i w us i' w'}
    (h : Reps p i w us i' w') : ∀ {a a' lo hi}, (∀ m, hi = some m → us.length ≤ m) →
    feeds c a us = some a' →
    loop (step c p) (a, i, lo, hi) w =
      loop (step c p) (a', i', lo - us.length, hi.map (· - us.length)) w' := by
  induction h with
  | nil => intro a a' lo hi _ hf; cases hf; cases hi <;> simp
  | cons h1 hrest ih =>
    rename_i i w i1 u w1 us i' w'
    intro a a' lo hi hm hf
    simp only [feeds] at hf
    cases hfe : c.feed a u with
    | inr t => simp [hfe] at hf
    | inl a1 =>
      simp only [hfe] at hf
      have hne : hi ≠ some 0 := fun e => by have := hm 0 e; simp at this
      have hs : step c p (a, i, lo, hi) w =
          .ok (.inl (a1, i1, lo - 1, hi.map (· - 1)), w1) := by
        simp [step, hne, h1, hfe]
      rw [loop_apply, hs]
      dsimp only [Res.bind_ok]
      rw [ih (a := a1) (a' := a') (lo := lo - 1) (hi := hi.map (· - 1)) ?_ hf]
      · congr 3
        simp only [List.length_cons]
        congr 1
        · omega
        · cases hi with
          | none => rfl
          | some m => simp; omega
      · intro m he
        cases hi with
        | none => simp at he
        | some m' =>
          have := hm m' rfl
          simp at he this
          omega

theorem hi_ne {k : Nat} {hi : Option Nat} (h : Below k hi) : hi.map (· - k) ≠ some 0 := by
  cases hi with
  | none => simp
  | some m => have := h m rfl; simp; omega

theorem Below.le {k : Nat} {hi : Option Nat} (h : Below k hi) : ∀ m, hi = some m → k ≤ m :=
  fun m e => Nat.le_of_lt (h m e)

/-- The collector used by `many` into a vector. -/
theorem core_vec_of_outcome {p : Parser σ I U E} {lo hi i w o}
    (hlh : ∀ m, hi = some m → lo ≤ m) (h : RepOutcome p lo hi i w o) :
    core (Collect.vec U) p lo hi i w = o := by
  have start : ∀ {us i' w'}, Reps p i w us i' w' → (∀ m, hi = some m → us.length ≤ m) →
      core (Collect.vec U) p lo hi i w = loop (step (Collect.vec U) p)
        (us.reverse, i', lo - us.length, hi.map (· - us.length)) w' := by
    intro us i' w' hr hm
    have := reps_loop (c := Collect.vec U) hr (a := []) (lo := lo) hm (feeds_vec us [])
    simpa [core, Collect.vec] using this
  cases h with
  | full hr hm =>
    have hl := hlh _ hm
    rw [start hr (by intro m e; rw [hm] at e; cases e; omega), loop_apply]
    simp [step, hm, final, Collect.vec]; omega
  | stop_error hr hb hp hl =>
    rw [start hr (Below.le hb), loop_apply]
    have := hi_ne hb
    simp [step, this, hp, Collect.vec]; omega
  | stop_last hr hb hp hl hm =>
    rw [start hr (Below.le hb), loop_apply]
    have := hi_ne hb
    simp [step, this, hp, final, Collect.vec, hm]; omega
  | error hr hb hp hl =>
    rw [start hr (Below.le hb), loop_apply]
    have h1 := hi_ne hb
    have h2 : ¬ (lo ≤ _) := Nat.not_le.mpr hl
    simp [step, h1, hp, Collect.vec]; omega
  | incomplete hr hb hp hl =>
    rw [start hr (Below.le hb), loop_apply]
    have h1 := hi_ne hb
    simp [step, h1, hp, final, Collect.vec]
    intro h2 h3
    rcases hl with hl | hl
    · omega
    · simp [hl] at h3
  | panic hr hb hp =>
    rw [start hr (Below.le hb), loop_apply]
    have h1 := hi_ne hb
    simp [step, h1, hp]
  | ub hr hb hp =>
    rw [start hr (Below.le hb), loop_apply]
    have h1 := hi_ne hb
    simp [step, h1, hp]

theorem core_vec_div {p : Parser σ I U E} {lo hi i w} (h : RepDiverges p hi i w) :
    core (Collect.vec U) p lo hi i w = .div := by
  have start : ∀ {us i' w'}, Reps p i w us i' w' → (∀ m, hi = some m → us.length ≤ m) →
      core (Collect.vec U) p lo hi i w = loop (step (Collect.vec U) p)
        (us.reverse, i', lo - us.length, hi.map (· - us.length)) w' := by
    intro us i' w' hr hm
    have := reps_loop (c := Collect.vec U) hr (a := []) (lo := lo) hm (feeds_vec us [])
    simpa [core, Collect.vec] using this
  cases h with
  | inside hr hb hp =>
    rw [start hr (Below.le hb), loop_apply]
    have h1 := hi_ne hb
    simp [step, h1, hp]
  | forever hn hf =>
    subst hn
    by_cases hd : core (Collect.vec U) p lo none i w = .div
    · exact hd
    · exfalso
      have hd' : loop (step (Collect.vec U) p) ([], i, lo, none) w ≠ .div := hd
      have hrun := loop_run _ _ hd'
      have key : ∀ s w o, LoopRun (step (Collect.vec U) p) s w o → s.2.2.2 = none →
          (∀ n, ∃ us i' w', us.length = n ∧ Reps p s.2.1 w us i' w') → False := by
        intro s w o hrun
        induction hrun with
        | brk hb =>
          rename_i s w r w'
          intro hs hf
          obtain ⟨us, i', w', hl, hr⟩ := hf 1
          cases hr with
          | nil => simp at hl
          | cons h1 _ => simp [step, hs, h1, Collect.vec] at hb
        | panic hb =>
          rename_i s w
          intro hs hf
          obtain ⟨us, i', w', hl, hr⟩ := hf 1
          cases hr with
          | nil => simp at hl
          | cons h1 _ => simp [step, hs, h1, Collect.vec] at hb
        | ub hb =>
          rename_i s w
          intro hs hf
          obtain ⟨us, i', w', hl, hr⟩ := hf 1
          cases hr with
          | nil => simp at hl
          | cons h1 _ => simp [step, hs, h1, Collect.vec] at hb
        | cont hc hrest ih =>
          rename_i s w s' w' o
          intro hs hf
          obtain ⟨us, i', w1, hl, hr⟩ := hf 1
          cases hr with
          | nil => simp at hl
          | cons h1 _ =>
            simp [step, hs, h1, Collect.vec] at hc
            obtain ⟨e, rfl⟩ := hc
            cases e
            apply ih rfl
            intro n
            obtain ⟨us, i', w1, hl, hr⟩ := hf (n + 1)
            cases hr with
            | nil => simp at hl
            | cons h2 h3 =>
              rw [h1] at h2; cases h2
              exact ⟨_, _, _, by simpa using hl, h3⟩
      exact key _ _ _ hrun rfl hf

/-- Either the repetition diverges or it has an outcome. -/
theorem outcome_or_diverges (p : Parser σ I U E) (lo : Nat) (hi : Option Nat) (i : Input I) (w : σ) :
    RepDiverges p hi i w ∨ ∃ o, RepOutcome p lo hi i w o := by
  have stop : ∀ {us i' w'}, Reps p i w us i' w' → Below us.length hi →
      (∀ i2 u w2, p i' w' ≠ .ok (.data i2 u, w2)) →
      RepDiverges p hi i w ∨ ∃ o, RepOutcome p lo hi i w o := by
    intro us i' w' hr hb hn
    cases hp : p i' w' with
    | ok r =>
      obtain ⟨r, w2⟩ := r
      cases r with
      | data i2 u => exact absurd hp (hn _ _ _)
      | error b e =>
        right
        rcases Nat.lt_or_ge us.length lo with hl | hl
        · exact ⟨_, .error hr hb hp hl⟩
        · exact ⟨_, .stop_error hr hb hp hl⟩
      | incomplete n =>
        right
        rcases Nat.lt_or_ge us.length lo with hl | hl
        · exact ⟨_, .incomplete hr hb hp (.inl hl)⟩
        · cases hm : i'.mode with
          | default => exact ⟨_, .incomplete hr hb hp (.inr hm)⟩
          | endOfInput => exact ⟨_, .stop_last hr hb hp hl hm⟩
    | panic => exact .inr ⟨_, .panic hr hb hp⟩
    | ub => exact .inr ⟨_, .ub hr hb hp⟩
    | div => exact .inl (.inside hr hb hp)
  cases hi with
  | some m =>
    rcases Reps.dichotomy p i w m with ⟨us, i', w', hl, hr⟩ | ⟨us, i', w', hl, hr, hn⟩
    · exact .inr ⟨_, .full hr (by simp [hl])⟩
    · exact stop hr (by intro m' e; cases e; exact hl) hn
  | none =>
    by_cases h : ∀ n, ∃ us i' w', us.length = n ∧ Reps p i w us i' w'
    · exact .inl (.forever rfl h)
    · rw [Classical.not_forall] at h
      obtain ⟨n, hn⟩ := h
      rcases Reps.dichotomy p i w n with h1 | ⟨us, i', w', hl, hr, hn⟩
      · exact absurd h1 hn
      · exact stop hr (by intro m' e; cases e) hn

/-- The common loop collecting into a vector meets the specification. -/
theorem core_vec_iff {p : Parser σ I U E} {lo hi i w o} (hlh : ∀ m, hi = some m → lo ≤ m)
    (ho : o ≠ .div) : core (Collect.vec U) p lo hi i w = o ↔ RepOutcome p lo hi i w o := by
  constructor
  · intro h
    rcases outcome_or_diverges p lo hi i w with hd | ⟨o', ho'⟩
    · rw [core_vec_div hd] at h; exact absurd h.symm ho
    · rw [core_vec_of_outcome hlh ho'] at h; subst h; exact ho'
  · exact core_vec_of_outcome hlh

theorem core_vec_div_iff {p : Parser σ I U E} {lo hi i w} (hlh : ∀ m, hi = some m → lo ≤ m) :
    core (Collect.vec U) p lo hi i w = .div ↔ RepDiverges p hi i w := by
  constructor
  · intro h
    rcases outcome_or_diverges p lo hi i w with hd | ⟨o', ho'⟩
    · exact hd
    · exfalso
      rw [core_vec_of_outcome hlh ho'] at h
      subst h
      cases ho'
  · exact core_vec_div

/-- Counting does not depend on what is collected. -/
theorem core_unit_eq (p : Parser σ I U E) (lo : Nat) (hi : Option Nat) (i : Input I) (w : σ) :
    core (unit U) p lo hi i w = (core (Collect.vec U) p lo hi i w >>= fun r => .ok (match r.1 with
      | .data i _ => .data i ()
      | .error b e => .error b e
      | .incomplete n => .incomplete n, r.2)) := by
  refine loop_sim (f := step (unit U) p) (g := step (Collect.vec U) p)
    (R := fun s1 w1 s2 w2 => w1 = w2 ∧ s1.2 = s2.2)
    (Q := fun r1 r2 => r1 = (r2 >>= fun r => .ok (match r.1 with
      | .data i _ => .data i ()
      | .error b e => .error b e
      | .incomplete n => .incomplete n, r.2))) rfl ?_ (s1 := ((), i, lo, hi)) (s2 := ([], i, lo, hi))
      ⟨rfl, rfl⟩
  rintro ⟨⟨⟩, i, lo, hi⟩ w ⟨a, _⟩ _ ⟨rfl, rfl⟩
  by_cases h0 : hi = some 0
  · right
    rw [loop_apply, loop_apply]
    by_cases hl : lo = 0 <;> simp [step, h0, final, hl, unit]
  · cases hp : p i w with
    | ok r =>
      obtain ⟨r, w1⟩ := r
      cases r with
      | data b v =>
        left
        exact ⟨_, w1, _, w1, by simp [step, h0, hp, unit]; rfl,
          by simp [step, h0, hp, Collect.vec]; rfl, rfl, rfl⟩
      | error b e =>
        right
        rw [loop_apply, loop_apply]
        by_cases hl : lo = 0 <;> simp [step, h0, hp, hl, unit]
      | incomplete n =>
        right
        rw [loop_apply, loop_apply]
        by_cases hl : lo = 0 ∧ (hi = some 0 ∨ i.mode = .endOfInput) <;>
          simp [step, h0, hp, final, unit] <;> split <;> simp
    | _ =>
      right
      rw [loop_apply, loop_apply]
      simp [step, h0, hp]

end Rep

end Chomp
