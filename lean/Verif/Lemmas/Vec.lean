import Verif.Lemmas.SizeHint
import Verif.Lemmas.Till
import Verif.Spec.Vec

/-
Collecting into a vector with little memory, and into any collection.
-/

namespace Chomp.Vec

open Spec Bounded

theorem least_eq (r : Range) : Rep.min r = least r := by cases r <;> rfl

theorem most_eq (r : Range) : Rep.max r = most r := by cases r <;> rfl

theorem fine_eq (r : Range) : Rep.ok r ↔ Fine r := by cases r <;> rfl

theorem allocate_ok {room cap : Nat} (h : cap ≤ room) (w : σ) : allocate room cap w = .ok (cap, w) := by
  unfold allocate; rw [if_pos h]; rfl

theorem allocate_panic {room cap : Nat} (h : room < cap) (w : σ) : allocate room cap w = .panic := by
  unfold allocate; rw [if_neg (by omega)]; rfl

/-- the loop in `Driver.vec` -/
def turn (minCap room : Nat) (next : It → M σ (Option U × It)) (hint : It → Nat × Option Nat)
    (s : List U × Nat × It) : M σ ((List U × Nat × It) ⊕ (List U × It)) := do
  let (acc, cap, it) := s
  let (o, it) ← next it
  match o with
  | none => pure (.inr (acc.reverse, it))
  | some u =>
    if acc.length == cap then
      let cap ← allocate room
        (max minCap (max (cap * 2) (acc.length + min ((hint it).1 + 1) usizeMax)))
      pure (.inl (u :: acc, cap, it))
    else pure (.inl (u :: acc, cap, it))

theorem turn_some {minCap room : Nat} {next : It → M σ (Option U × It)} {hint : It → Nat × Option Nat}
    {acc : List U} {cap : Nat} {it it1 : It} {w w1 : σ} {u : U}
    (hn : next it w = .ok ((some u, it1), w1)) :
    turn minCap room next hint (acc, cap, it) w =
      if acc.length = cap then
        (allocate room (max minCap (max (cap * 2) (acc.length + min ((hint it1).1 + 1) usizeMax))) w1).bind
          fun x => .ok (.inl (u :: acc, x.1, it1), x.2)
      else .ok (.inl (u :: acc, cap, it1), w1) := by
  rw [turn, M.bind_ok hn]
  by_cases hc : acc.length = cap
  · have : (acc.length == cap) = true := by simpa using hc
    simp only [this, if_true]
    rw [if_pos hc, M.bind_apply]
    rfl
  · have : (acc.length == cap) = false := by simpa using hc
    simp only [this, Bool.false_eq_true, if_false]
    rw [if_neg hc]
    rfl

/-- the loop in `fromIter (Collect.vec U)` -/
def plain (next : It → M σ (Option U × It)) (s : List U × It) : M σ ((List U × It) ⊕ (List U × It)) := do
  let (o, it') ← next s.2
  match o with
  | none => pure (.inr (s.1.reverse, it'))
  | some u => pure (.inl (u :: s.1, it'))

theorem vec_eq (minCap room : Nat) (next : It → M σ (Option U × It)) (hint : It → Nat × Option Nat)
    (it : It) : Driver.vec minCap room It next hint it = (do
      let (o, it) ← next it
      match o with
      | none => pure ([], it)
      | some u =>
        let cap ← allocate room (max minCap (min ((hint it).1 + 1) usizeMax))
        loop (turn minCap room next hint) ([u], cap, it)) := rfl

theorem plain_eq (next : It → M σ (Option U × It)) (it : It) :
    fromIter (Collect.vec U) next it = loop (plain next) ([], it) := rfl

/-- With enough memory nothing is different. -/
theorem same {next : It → M σ (Option U × It)} {hint : It → Nat × Option Nat} {it : It} {w : σ}
    {minCap room lo N : Nat}
    (hc : ∀ us it1 w1, Iterates next it w us it1 w1 → us.length ≤ N ∧
      (us ≠ [] → (hint it1).1 ≤ lo - us.length))
    (h1 : minCap ≤ room) (h2 : lo ≤ room) (h3 : 2 * N ≤ room) :
    Driver.vec minCap room It next hint it w = fromIter (Collect.vec U) next it w := by
  rw [vec_eq, plain_eq, loop_apply, M.bind_apply]
  unfold plain
  rw [M.bind_apply]
  cases hn : next it w with
  | ok x =>
    obtain ⟨⟨o, it1⟩, w1⟩ := x
    cases o with
    | none => rfl
    | some u =>
      have hi : Iterates next it w [u] it1 w1 := .cons hn .nil
      obtain ⟨hl, hh⟩ := hc _ _ _ hi
      have hh := hh (by simp)
      simp only [List.length_singleton] at hl hh
      simp only [Res.bind_ok]
      have ha : max minCap (min ((hint it1).1 + 1) usizeMax) ≤ room := by omega
      rw [M.bind_ok (allocate_ok ha w1)]
      refine loop_sim (s1 := ([u], max minCap (min ((hint it1).1 + 1) usizeMax), it1))
        (R := fun s1 v1 s2 v2 => v1 = v2 ∧ s2 = (s1.1, s1.2.2) ∧ 1 ≤ s1.1.length ∧
          Iterates next it w s1.1.reverse s1.2.2 v1)
        (Q := fun r1 r2 => r1 = r2) rfl ?_ ⟨rfl, rfl, by simp, hi⟩
      rintro ⟨acc, cap, it2⟩ w2 _ _ ⟨rfl, rfl, hpos, hi2⟩
      dsimp only at hpos hi2
      cases hn2 : next it2 w2 with
      | ok x =>
        obtain ⟨⟨o, it3⟩, w3⟩ := x
        cases o with
        | none =>
          right
          rw [loop_apply, loop_apply, turn, M.bind_ok hn2, M.bind_ok hn2]
          rfl
        | some u' =>
          left
          have hi3 := hi2.snoc hn2
          obtain ⟨hl3, hh3⟩ := hc _ _ _ hi3
          have hh3 := hh3 (by simp)
          simp only [List.length_append, List.length_reverse, List.length_singleton] at hl3 hh3
          by_cases hcap : acc.length = cap
          · have ha : max minCap (max (cap * 2) (acc.length + min ((hint it3).1 + 1) usizeMax)) ≤ room := by
              generalize usizeMax = z
              omega
            have ht := turn_some (minCap := minCap) (room := room) (hint := hint) (acc := acc) (cap := cap) hn2
            rw [if_pos hcap] at ht
            generalize max minCap (max (cap * 2) (acc.length + min ((hint it3).1 + 1) usizeMax)) = c at ha ht
            rw [allocate_ok ha] at ht
            exact ⟨(u' :: acc, c, it3), w3, (u' :: acc, it3), w3, ht, by rw [M.bind_ok hn2]; rfl, rfl, rfl,
              Nat.succ_pos _, by simpa using hi3⟩
          · refine ⟨(u' :: acc, cap, it3), w3, (u' :: acc, it3), w3, ?_, ?_, rfl, rfl, by simp, by simpa using hi3⟩
            · rw [turn_some hn2, if_neg hcap]
            · rw [M.bind_ok hn2]; rfl
      | _ =>
        right
        rw [loop_apply, loop_apply, turn, M.bind_apply, M.bind_apply, hn2]
        rfl
  | _ => rfl

/-- More items than fit. -/
theorem exhausted {next : It → M σ (Option U × It)} {hint : It → Nat × Option Nat} {it it' : It}
    {w w' : σ} {us : List U} {minCap room : Nat} (h : Iterates next it w us it' w')
    (hl : room < us.length) : Driver.vec minCap room It next hint it w = .panic := by
  have key : ∀ {it w us it' w'}, Iterates next it w us it' w' → ∀ acc cap, acc.length ≤ cap →
      cap ≤ room → room < acc.length + us.length →
      loop (turn minCap room next hint) (acc, cap, it) w = .panic := by
    intro it w us it' w' h
    induction h with
    | nil => intro acc cap h1 h2 h3; simp at h3; omega
    | @cons it w u it1 w1 us it' w' hn _ ih =>
      intro acc cap h1 h2 h3
      rw [List.length_cons] at h3
      rw [loop_apply, turn, M.bind_ok hn]
      by_cases hcap : acc.length = cap
      · simp only [hcap, beq_self_eq_true, if_true]
        by_cases ha : max minCap (max (cap * 2) (cap + min ((hint it1).1 + 1) usizeMax)) ≤ room
        · rw [M.bind_ok (allocate_ok ha w1)]
          exact ih (u :: acc) _ (by have : 0 < usizeMax := by decide
                                    simp; omega) ha (by simp; omega)
        · rw [M.bind_apply, allocate_panic (by omega)]
          rfl
      · have hcap' : (acc.length == cap) = false := by simpa using hcap
        simp only [hcap', Bool.false_eq_true, if_false]
        exact ih (u :: acc) cap (by simp; omega) h2 (by simp; omega)
  cases h with
  | nil => simp at hl
  | @cons _ _ u it1 w1 us _ _ hn h =>
    rw [List.length_cons] at hl
    rw [vec_eq, M.bind_ok hn]
    dsimp only
    by_cases ha : max minCap (min ((hint it1).1 + 1) usizeMax) ≤ room
    · rw [M.bind_ok (allocate_ok ha w1)]
      exact key h [u] _ (by have : 0 < usizeMax := by decide
                            simp; omega) ha (by simp; omega)
    · rw [M.bind_apply, allocate_panic (by omega)]
      rfl

/-- The lower bound of the hint does not fit. -/
theorem huge {next : It → M σ (Option U × It)} {hint : It → Nat × Option Nat} {it it1 : It}
    {w w1 : σ} {u : U} {minCap room : Nat} (h : next it w = .ok ((some u, it1), w1))
    (hl : room ≤ (hint it1).1) (hr : room < usizeMax) :
    Driver.vec minCap room It next hint it w = .panic := by
  rw [vec_eq, M.bind_ok h]
  dsimp only
  rw [M.bind_apply, allocate_panic (by omega)]
  rfl

/-! ### the iterators of `many` -/

variable {h : Hooks σ D} {fin : T → Input I → D → EndState I E → ParseResult I T E} {lo : D → Nat}
  {hi : D → Option Nat}

theorem next_some (hf : Rep.Facts h fin lo hi) {p : Parser σ I U E} {it it1 : Iter I E D} {w w1 : σ} {u : U}
    (hn : iterNext h p it w = .ok ((some u, it1), w1)) :
    hi it.data ≠ some 0 ∧ p it.buf w = .ok (.data it1.buf u, w1) ∧ lo it1.data = lo it.data - 1 ∧
      hi it1.data = (hi it.data).map (· - 1) := by
  rw [Rep.iterNext_eq] at hn
  split at hn
  · cases hn
  · rename_i hp
    have hh : hi it.data ≠ some 0 := fun e => hp ((hf.pre _).mpr e)
    cases hr : p it.buf w with
    | ok r =>
      obtain ⟨r, w2⟩ := r
      rw [hr] at hn
      cases r with
      | data b v =>
        obtain ⟨d', h1, h2, h3⟩ := hf.on it.data w2 hh
        simp only [Res.bind_ok, h1] at hn
        cases hn
        exact ⟨hh, rfl, h2, h3⟩
      | error => cases hn
      | incomplete => cases hn
    | _ => rw [hr] at hn; cases hn

theorem next_none (hf : Rep.Facts h fin lo hi) {p : Parser σ I U E} {it it1 : Iter I E D} {w w1 : σ}
    (hn : iterNext h p it w = .ok ((none, it1), w1)) :
    it1.buf = it.buf ∧ it1.data = it.data ∧ (w1 = w ∨ (∃ b e, p it.buf w = .ok (.error b e, w1)) ∨
      ∃ n, p it.buf w = .ok (.incomplete n, w1)) := by
  rw [Rep.iterNext_eq] at hn
  split at hn
  · cases hn; exact ⟨rfl, rfl, .inl rfl⟩
  · rename_i hp
    have hh : hi it.data ≠ some 0 := fun e => hp ((hf.pre _).mpr e)
    cases hr : p it.buf w with
    | ok r =>
      obtain ⟨r, w2⟩ := r
      rw [hr] at hn
      cases r with
      | data b v =>
        obtain ⟨d', h1, h2, h3⟩ := hf.on it.data w2 hh
        simp only [Res.bind_ok, h1] at hn
        cases hn
      | error => cases hn; exact ⟨rfl, rfl, .inr (.inl ⟨_, _, rfl⟩)⟩
      | incomplete => cases hn; exact ⟨rfl, rfl, .inr (.inr ⟨_, rfl⟩)⟩
    | _ => rw [hr] at hn; cases hn

theorem iterates_reps (hf : Rep.Facts h fin lo hi) {p : Parser σ I U E} {it it1 : Iter I E D} {w w1 : σ}
    {us : List U} (hit : Iterates (iterNext h p) it w us it1 w1) :
    Reps p it.buf w us it1.buf w1 ∧ lo it1.data = lo it.data - us.length ∧
      ∀ m, hi it.data = some m → us.length ≤ m := by
  induction hit with
  | nil => exact ⟨.nil, rfl, fun m _ => Nat.zero_le _⟩
  | cons hn _ ih =>
    obtain ⟨h0, h1, h2, h3⟩ := next_some hf hn
    obtain ⟨h4, h5, h6⟩ := ih
    refine ⟨.cons h1 h4, by rw [h5, h2, List.length_cons]; omega, ?_⟩
    intro m hm
    rw [hm] at h0 h3
    have := h6 (m - 1) h3
    have : m ≠ 0 := fun e => h0 (by rw [e])
    rw [List.length_cons]
    omega

theorem reps_iterates (hf : Rep.Facts h fin lo hi) {p : Parser σ I U E} {i i' : Input I} {w w' : σ}
    {us : List U} (hr : Reps p i w us i' w') : ∀ (st : EndState I E) (d : D),
    (∀ m, hi d = some m → us.length ≤ m) →
    ∃ it1, Iterates (iterNext h p) ⟨st, i, d⟩ w us it1 w' := by
  induction hr with
  | nil => intro st d _; exact ⟨_, .nil⟩
  | cons h1 _ ih =>
    intro st d hm
    have hh : hi d ≠ some 0 := by
      intro e
      have := hm 0 e
      simp at this
    have hp : ¬ h.pre d = true := fun e => hh ((hf.pre _).mp e)
    rename_i w1 us i' w' _
    obtain ⟨d', e1, e2, e3⟩ := hf.on d w1 hh
    obtain ⟨it1, hi1⟩ := ih st d' (by
      intro m he
      rw [e3] at he
      cases hd : hi d with
      | none => rw [hd] at he; cases he
      | some m' =>
        rw [hd] at he
        simp only [Option.map_some, Option.some.injEq] at he
        have := hm m' hd
        rw [List.length_cons] at this
        omega)
    refine ⟨it1, .cons ?_ hi1⟩
    rw [Rep.iterNext_eq, if_neg hp, h1]
    simp only [Res.bind_ok, e1]

/-! ### the iterators of `many_till` -/

section Till

variable {h : HooksTill σ I E D} {fin : T → Input I → D → EndStateTill I E → M σ (ParseResult I T E)}
  {end_ : Parser σ I V N} {last : Nat} {good : Nat → Option Nat → Bool} {lo : D → Nat}
  {hi : D → Option Nat}

theorem till_next_some (hf : Till.Facts h fin end_ last good lo hi) {p : Parser σ I U E}
    {it it1 : IterTill I E D} {w w1 : σ} {u : U}
    (hn : iterTillNext h p it w = .ok ((some u, it1), w1)) :
    ∃ w', hi it.data ≠ some 0 ∧ Test end_ (Till.triesAt last (lo it.data) (hi it.data)) it.buf w none w' ∧
      p it.buf w' = .ok (.data it1.buf u, w1) ∧ lo it1.data = lo it.data - 1 ∧
      hi it1.data = (hi it.data).map (· - 1) := by
  rw [Till.iterTillNext_eq, hf.pre] at hn
  cases ht : Till.test end_ (Till.triesAt last (lo it.data) (hi it.data)) it.buf w with
  | ok x =>
    obtain ⟨x, w2⟩ := x
    rw [ht] at hn
    cases x with
    | some b => cases hn
    | none =>
      by_cases hh : hi it.data = some 0
      · simp [hh] at hn
      · simp only [Res.bind_ok, hh, decide_false, Bool.false_eq_true, if_false] at hn
        cases hr : p it.buf w2 with
        | ok r =>
          obtain ⟨r, w3⟩ := r
          rw [hr] at hn
          cases r with
          | data b v =>
            obtain ⟨d', h1, h2, h3⟩ := hf.on it.data w3 hh
            simp only [Res.bind_ok, h1] at hn
            cases hn
            exact ⟨w2, hh, Till.test_iff.mp ht, hr, h2, h3⟩
          | error => cases hn
          | incomplete => cases hn
        | _ => rw [hr] at hn; cases hn
  | _ => rw [ht] at hn; cases hn

theorem map_sub (hi : Option Nat) (k : Nat) : (hi.map (· - k)).map (· - 1) = hi.map (· - (k + 1)) := by
  cases hi with
  | none => rfl
  | some m => simp; omega

theorem below_of_ne {hi : Option Nat} {k : Nat} (hne : hi.map (· - k) ≠ some 0) : Below k hi := by
  intro m hm
  subst hm
  simp at hne
  omega

theorem iterates_run (hf : Till.Facts h fin end_ last good lo hi) {p : Parser σ I U E} {L : Nat}
    {H : Option Nat} (hlh : ∀ m, H = some m → L ≤ m) {i : Input I} {w0 : σ}
    {it it1 : IterTill I E D} {w w1 : σ} {us : List U}
    (hit : Iterates (iterTillNext h p) it w us it1 w1) : ∀ us0,
    TillRun p end_ L H last i w0 us0 it.buf w → lo it.data = L - us0.length →
    hi it.data = H.map (· - us0.length) →
    TillRun p end_ L H last i w0 (us0 ++ us) it1.buf w1 ∧ lo it1.data = L - (us0 ++ us).length := by
  induction hit with
  | nil => intro us0 h1 h2 _; rw [List.append_nil]; exact ⟨h1, h2⟩
  | @cons it w u it2 w2 us _ _ hn _ ih =>
    intro us0 h1 h2 h3
    obtain ⟨w', e1, e2, e3, e4, e5⟩ := till_next_some hf hn
    rw [h2, h3, Till.tries_eq hlh (Till.TillRun.le h1)] at e2
    rw [h3] at e1
    have := ih (us0 ++ [u]) (.snoc h1 (below_of_ne e1) e2 e3) (by rw [e4, h2]; simp; omega)
      (by rw [e5, h3, map_sub]; simp)
    simpa using this

theorem run_iterates (hf : Till.Facts h fin end_ last good lo hi) {p : Parser σ I U E} {L : Nat}
    {H : Option Nat} (hlh : ∀ m, H = some m → L ≤ m) {i i' : Input I} {w w' : σ} {us : List U}
    (hr : TillRun p end_ L H last i w us i' w') (st : EndStateTill I E) (d : D) (h1 : lo d = L)
    (h2 : hi d = H) : ∃ it1, Iterates (iterTillNext h p) ⟨st, i, d⟩ w us it1 w' ∧ it1.buf = i' ∧
      lo it1.data = L - us.length ∧ hi it1.data = H.map (· - us.length) := by
  induction hr with
  | nil => exact ⟨_, .nil, rfl, h1, by rw [h2]; cases H <;> rfl⟩
  | snoc hr hb ht hp ih =>
    rename_i us i1 w1 w2 i2 u w3
    obtain ⟨it1, e1, rfl, e3, e4⟩ := ih
    have hne : hi it1.data ≠ some 0 := by rw [e4]; exact Rep.hi_ne hb
    have ht' := Till.test_iff.mpr ht
    rw [← Till.tries_eq hlh (Till.TillRun.le hr), ← e3, ← e4] at ht'
    obtain ⟨d', f1, f2, f3⟩ := hf.on it1.data w3 hne
    refine ⟨{ it1 with buf := i2, data := d' }, e1.snoc ?_, rfl, by
      dsimp only; rw [f2, e3]; simp; omega, by dsimp only; rw [f3, e4, map_sub]; simp⟩
    rw [Till.iterTillNext_eq, hf.pre, ht']
    simp only [Res.bind_ok, hne, decide_false, Bool.false_eq_true, if_false]
    rw [hp]
    simp only [Res.bind_ok, f1]

end Till

/-! ### any collection -/

theorem pulls_snoc {p : Parser σ I U E} {i j w us w'} (hp : Pulls p i w us j w') :
    (∀ j' u w2, p j w' = .ok (.data j' u, w2) → Pulls p i w (us ++ [u]) j' w2) ∧
    (∀ b e w2, p j w' = .ok (.error b e, w2) → Pulls p i w us j w2) ∧
    (∀ n w2, p j w' = .ok (.incomplete n, w2) → Pulls p i w us j w2) := by
  induction hp with
  | nil =>
    exact ⟨fun _ _ _ h => .item h .nil, fun _ _ _ h => .error h .nil, fun _ _ h => .incomplete h .nil⟩
  | item h1 _ ih =>
    exact ⟨fun _ _ _ h => .item h1 (ih.1 _ _ _ h), fun _ _ _ h => .item h1 (ih.2.1 _ _ _ h),
      fun _ _ h => .item h1 (ih.2.2 _ _ h)⟩
  | error h1 _ ih =>
    exact ⟨fun _ _ _ h => .error h1 (ih.1 _ _ _ h), fun _ _ _ h => .error h1 (ih.2.1 _ _ _ h),
      fun _ _ h => .error h1 (ih.2.2 _ _ h)⟩
  | incomplete h1 _ ih =>
    exact ⟨fun _ _ _ h => .incomplete h1 (ih.1 _ _ _ h), fun _ _ _ h => .incomplete h1 (ih.2.1 _ _ _ h),
      fun _ _ h => .incomplete h1 (ih.2.2 _ _ h)⟩

theorem consumer_pulls (hf : Rep.Facts h fin lo hi) (c : Consumer U T) (p : Parser σ I U E)
    (st : EndState I E) (i : Input I) (d : D) (w w' : σ) (t : T) (itE : Iter I E D)
    (hk : c.driver _ (iterNext h p) (fun it => h.sizeHint it.data) ⟨st, i, d⟩ w = .ok ((t, itE), w')) :
    ∃ us, Pulls p i w us itE.buf w' ∧ lo itE.data = lo d - us.length ∧
      ∀ m, hi d = some m → us.length ≤ m := by
  unfold Consumer.driver at hk
  refine loop_inv
    (P := fun s w1 => ∃ us, Pulls p i w us s.2.buf w1 ∧ lo s.2.data = lo d - us.length ∧
      (∀ m, hi d = some m → us.length ≤ m) ∧ hi s.2.data = (hi d).map (· - us.length))
    (Q := fun r => ∀ t itE w', r = .ok ((t, itE), w') → ∃ us, Pulls p i w us itE.buf w' ∧
      lo itE.data = lo d - us.length ∧ ∀ m, hi d = some m → us.length ≤ m)
    (by intro _ _ _ h; cases h) ?_ ⟨[], .nil, rfl, fun _ _ => Nat.zero_le _, by cases hi d <;> rfl⟩
    t itE w' hk
  rintro ⟨s, it⟩ w1 ⟨us, h1, h2, h3, h4⟩
  dsimp only at h1 h2 h4
  cases ha : c.ask s with
  | done t =>
    right
    intro t' itE w' hr
    rw [loop_apply] at hr
    dsimp only at hr
    rw [ha] at hr
    cases hr
    exact ⟨us, h1, h2, h3⟩
  | panic =>
    right
    intro t' itE w' hr
    rw [loop_apply] at hr
    dsimp only at hr
    rw [ha] at hr
    cases hr
  | hint k =>
    left
    exact ⟨(k (h.sizeHint it.data), it), w1, by simp only; rfl, us, h1, h2, h3, h4⟩
  | next k =>
    cases hn : iterNext h p it w1 with
    | ok x =>
      obtain ⟨⟨o, it1⟩, w2⟩ := x
      left
      refine ⟨(k o, it1), w2, by simp only; rw [M.bind_ok hn]; rfl, ?_⟩
      dsimp only
      cases o with
      | none =>
        obtain ⟨e1, e2, e3⟩ := next_none hf hn
        rw [e1, e2]
        rcases e3 with rfl | ⟨b, e, e3⟩ | ⟨n, e3⟩
        · exact ⟨us, h1, h2, h3, h4⟩
        · exact ⟨us, (pulls_snoc h1).2.1 _ _ _ e3, h2, h3, h4⟩
        · exact ⟨us, (pulls_snoc h1).2.2 _ _ e3, h2, h3, h4⟩
      | some u =>
        obtain ⟨e0, e1, e2, e3⟩ := next_some hf hn
        refine ⟨us ++ [u], (pulls_snoc h1).1 _ _ _ e1, by rw [e2, h2]; simp; omega, ?_, ?_⟩
        · intro m hm
          have := h3 m hm
          rw [h4, hm] at e0
          simp only [Option.map_some, ne_eq, Option.some.injEq] at e0
          simp; omega
        · rw [e3, h4]
          cases hi d with
          | none => rfl
          | some m => simp; omega
    | _ =>
      right
      intro t' itE w' hr
      rw [loop_apply] at hr
      dsimp only at hr
      rw [ha] at hr
      dsimp only at hr
      rw [M.bind_apply, hn] at hr
      cases hr

end Chomp.Vec
