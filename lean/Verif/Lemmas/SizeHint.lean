import Verif.Lemmas.Till

/-
Running an iterator from a collection.
-/

namespace Chomp

open Spec

namespace Spec

/-- `Iterates next it w us it' w'`: calling `next` again and again, starting from the iterator `it`,
yields the items `us` and leaves the iterator `it'`. -/
inductive Iterates (next : It → M σ (Option U × It)) : It → σ → List U → It → σ → Prop
  | nil {it w} : Iterates next it w [] it w
  | cons {it w u it1 w1 us it' w'} : next it w = .ok ((some u, it1), w1) →
      Iterates next it1 w1 us it' w' → Iterates next it w (u :: us) it' w'

theorem Iterates.snoc {next : It → M σ (Option U × It)} {it w us it1 w1 u it2 w2}
    (h : Iterates next it w us it1 w1) (hn : next it1 w1 = .ok ((some u, it2), w2)) :
    Iterates next it w (us ++ [u]) it2 w2 := by
  induction h with
  | nil => exact .cons hn .nil
  | cons h1 _ ih => exact .cons h1 (ih hn)

/-- Of two runs from the same state, the second of which ended with `None`, the first is a prefix. -/
theorem Iterates.prefix {next : It → M σ (Option U × It)} {it w us it1 w1}
    (h : Iterates next it w us it1 w1) : ∀ {vs it2 w2 it3 w3}, Iterates next it w vs it2 w2 →
    next it2 w2 = .ok ((none, it3), w3) → ∃ rest, vs = us ++ rest ∧ Iterates next it1 w1 rest it2 w2 := by
  induction h with
  | nil => intro vs _ _ _ _ h2 _; exact ⟨vs, rfl, h2⟩
  | cons h1 _ ih =>
    intro vs it2 w2 it3 w3 h2 hn
    cases h2 with
    | nil => rw [h1] at hn; cases hn
    | cons h3 h4 =>
      rw [h1] at h3; cases h3
      obtain ⟨rest, rfl, hr⟩ := ih h4 hn
      exact ⟨rest, rfl, hr⟩

end Spec

namespace Hint

/-- Collecting into a vector: iterate until `None`. -/
theorem fromIter_vec {next : It → M σ (Option U × It)} {it w vs itE w'}
    (h : fromIter (Collect.vec U) next it w = .ok ((vs, itE), w')) :
    ∃ it1 w1, Iterates next it w vs it1 w1 ∧ next it1 w1 = .ok ((none, itE), w') := by
  unfold fromIter at h
  dsimp only [Collect.vec] at h
  have hrun := loop_eq_ok.mp h
  have key : ∀ s w1 o, LoopRun (fun (s : List U × It) => do
      let (o, it') ← next s.2
      match o with
      | none => pure (.inr (s.1.reverse, it'))
      | some u => pure (.inl (u :: s.1, it')) : List U × It → M σ ((List U × It) ⊕ (List U × It)))
      s w1 o → ∀ us, s.1 = us.reverse → Iterates next it w us s.2 w1 → ∀ vs itE w',
      o = .ok ((vs, itE), w') →
      ∃ it1 w1, Iterates next it w vs it1 w1 ∧ next it1 w1 = .ok ((none, itE), w') := by
    clear hrun h
    intro s w1 o hrun
    induction hrun with
    | brk hb =>
      rename_i s w1 r w2
      rintro us hs hi vs itE w' ⟨⟩
      obtain ⟨⟨o, it'⟩, w3, h1, h2⟩ := M.bind_eq_ok.mp hb
      cases o with
      | some u => simp at h2
      | none =>
        cases h2
        rw [hs, List.reverse_reverse]
        exact ⟨_, _, hi, h1⟩
    | panic => intro us hs hi vs itE w' h; cases h
    | ub => intro us hs hi vs itE w' h; cases h
    | cont hc _ ih =>
      rename_i s w1 s' w2 o _
      intro us hs hi vs itE w' ho
      obtain ⟨⟨o, it'⟩, w3, h1, h2⟩ := M.bind_eq_ok.mp hc
      cases o with
      | none => cases h2
      | some u =>
        cases h2
        exact ih (us ++ [u]) (by simp [hs]) (hi.snoc h1) vs itE w' ho
  exact key _ _ _ hrun [] rfl .nil _ _ _ rfl

/-- `next` counts down `lo` and `hi`. -/
structure Counts (next : It → M σ (Option U × It)) (lo : It → Nat) (hi : It → Option Nat) : Prop where
  some : ∀ it w u it1 w1, next it w = .ok ((some u, it1), w1) → lo it1 = lo it - 1 ∧
    (∀ m, hi it = some m → 0 < m) ∧ hi it1 = (hi it).map (· - 1)
  none : ∀ it w it1 w1, next it w = .ok ((none, it1), w1) → lo it1 = lo it

theorem Counts.iterates {next : It → M σ (Option U × It)} {lo : It → Nat} {hi : It → Option Nat}
    (hc : Counts next lo hi) {it w us it' w'} (h : Iterates next it w us it' w') :
    lo it' = lo it - us.length ∧ ∀ m, hi it = .some m → us.length ≤ m ∧ hi it' = .some (m - us.length) := by
  induction h with
  | nil => exact ⟨rfl, fun m h => ⟨Nat.zero_le _, h⟩⟩
  | cons h1 _ ih =>
    obtain ⟨e1, e2, e3⟩ := hc.some _ _ _ _ _ h1
    refine ⟨by rw [ih.1, e1, List.length_cons]; omega, ?_⟩
    intro m hm
    have h0 := e2 m hm
    rw [hm] at e3
    obtain ⟨h2, h3⟩ := ih.2 (m - 1) e3
    refine ⟨by simp; omega, ?_⟩
    rw [h3, List.length_cons]
    congr 1
    omega

/-- The lower bound: if the iterator ends with nothing missing. -/
theorem Counts.lower {next : It → M σ (Option U × It)} {lo : It → Nat} {hi : It → Option Nat}
    (hc : Counts next lo hi) {it w vs itE w'}
    (h : fromIter (Collect.vec U) next it w = .ok ((vs, itE), w')) (hE : lo itE = 0)
    {us it1 w1} (hu : Iterates next it w us it1 w1) :
    ∃ rest, vs = us ++ rest ∧ lo it1 ≤ rest.length ∧ ∀ m, hi it1 = .some m → rest.length ≤ m := by
  obtain ⟨it2, w2, hv, hn⟩ := fromIter_vec h
  obtain ⟨rest, rfl, hr⟩ := hu.prefix hv hn
  obtain ⟨h1, h2⟩ := hc.iterates hr
  have h3 := hc.none _ _ _ _ hn
  exact ⟨rest, rfl, by omega, fun m hm => (h2 m hm).1⟩

open Bounded

theorem counts_iter {h : Hooks σ D} (lo : D → Nat) (hi : D → Option Nat)
    (hon : ∀ d w d' w', h.on d w = .ok (d', w') → lo d' = lo d - 1 ∧
      (∀ m, hi d = some m → 0 < m) ∧ hi d' = (hi d).map (· - 1)) (p : Parser σ I U E) :
    Counts (iterNext h p) (fun it => lo it.data) (fun it => hi it.data) where
  some it w u it1 w1 hn := by
    rw [Rep.iterNext_eq] at hn
    split at hn
    · cases hn
    · cases hp : p it.buf w with
      | ok r =>
        obtain ⟨r, w2⟩ := r
        rw [hp] at hn
        cases r with
        | data b v =>
          cases ho : h.on it.data w2 with
          | ok d =>
            obtain ⟨d, w3⟩ := d
            simp only [Res.bind_ok, ho] at hn
            cases hn
            exact hon _ _ _ _ ho
          | _ => simp only [Res.bind_ok, ho] at hn; cases hn
        | error => cases hn
        | incomplete => cases hn
      | _ => rw [hp] at hn; cases hn
  none it w it1 w1 hn := by
    rw [Rep.iterNext_eq] at hn
    split at hn
    · cases hn; rfl
    · cases hp : p it.buf w with
      | ok r =>
        obtain ⟨r, w2⟩ := r
        rw [hp] at hn
        cases r with
        | data b v =>
          cases ho : h.on it.data w2 with
          | ok d => simp only [Res.bind_ok, ho] at hn; cases hn
          | _ => simp only [Res.bind_ok, ho] at hn; cases hn
        | error => cases hn; rfl
        | incomplete => cases hn; rfl
      | _ => rw [hp] at hn; cases hn

theorem counts_till {h : HooksTill σ I E D} (lo : D → Nat) (hi : D → Option Nat)
    (hpre : ∀ it w x it' w', h.pre it w = .ok ((x, it'), w') → it'.data = it.data)
    (hon : ∀ d w d' w', h.on d w = .ok (d', w') → lo d' = lo d - 1 ∧
      (∀ m, hi d = some m → 0 < m) ∧ hi d' = (hi d).map (· - 1)) (p : Parser σ I U E) :
    Counts (iterTillNext h p) (fun it => lo it.data) (fun it => hi it.data) where
  some it w u it1 w1 hn := by
    rw [Till.iterTillNext_eq] at hn
    cases hq : h.pre it w with
    | ok x =>
      obtain ⟨⟨x, it0⟩, w0⟩ := x
      have hd := hpre _ _ _ _ _ hq
      rw [hq] at hn
      simp only [Res.bind_ok] at hn
      split at hn
      · cases hn
      · cases hp : p it0.buf w0 with
        | ok r =>
          obtain ⟨r, w2⟩ := r
          rw [hp] at hn
          cases r with
          | data b v =>
            cases ho : h.on it0.data w2 with
            | ok d =>
              obtain ⟨d, w3⟩ := d
              simp only [Res.bind_ok, ho] at hn
              cases hn
              rw [← hd]
              exact hon _ _ _ _ ho
            | _ => simp only [Res.bind_ok, ho] at hn; cases hn
          | error => cases hn
          | incomplete => cases hn
        | _ => rw [hp] at hn; cases hn
    | _ => rw [hq] at hn; cases hn
  none it w it1 w1 hn := by
    rw [Till.iterTillNext_eq] at hn
    cases hq : h.pre it w with
    | ok x =>
      obtain ⟨⟨x, it0⟩, w0⟩ := x
      have hd := hpre _ _ _ _ _ hq
      rw [hq] at hn
      simp only [Res.bind_ok] at hn
      split at hn
      · cases hn; rw [← hd]
      · cases hp : p it0.buf w0 with
        | ok r =>
          obtain ⟨r, w2⟩ := r
          rw [hp] at hn
          cases r with
          | data b v =>
            cases ho : h.on it0.data w2 with
            | ok d => simp only [Res.bind_ok, ho] at hn; cases hn
            | _ => simp only [Res.bind_ok, ho] at hn; cases hn
          | error => cases hn; rw [← hd]
          | incomplete => cases hn; rw [← hd]
        | _ => rw [hp] at hn; cases hn
    | _ => rw [hq] at hn; cases hn

theorem dec_inv {d d' : Nat} {w w' : σ} (h : dec d w = .ok (d', w')) : 0 < d ∧ d' = d - 1 := by
  by_cases h0 : d = 0
  · subst h0; simp [dec, usub] at h
  · rw [Rep.dec_ok h0] at h; cases h; exact ⟨by omega, rfl⟩

theorem decSat_inv {d d' : Nat} {w w' : σ} (h : decSat d w = .ok (d', w')) : d' = d - 1 := by
  rw [Rep.decSat_ok] at h; cases h; rfl

theorem range_inv {d d' : Nat × Nat} {w w' : σ}
    (h : (do let x ← decSat d.1; let y ← dec d.2; pure (x, y) : M σ (Nat × Nat)) w = .ok (d', w')) :
    0 < d.2 ∧ d' = (d.1 - 1, d.2 - 1) := by
  rw [M.bind_ok (Rep.decSat_ok _ _)] at h
  obtain ⟨y, w1, h1, h2⟩ := M.bind_eq_ok.mp h
  obtain ⟨h3, rfl⟩ := dec_inv h1
  cases h2
  exact ⟨h3, rfl⟩

theorem endTest_data {end_ : Parser σ I V N} {it it' : IterTill I E D} {w x w'}
    (h : endTest end_ it w = .ok ((x, it'), w')) : it'.data = it.data := by
  rw [Till.endTest_eq] at h
  cases he : end_ it.buf w with
  | ok r =>
    obtain ⟨r, w2⟩ := r
    rw [he] at h
    cases r <;> cases h <;> rfl
  | _ => rw [he] at h; cases h

/-! The iterators of `many`. -/

theorem countsRange (p : Parser σ I U E) : Counts (iterNext hooksRange p)
    (fun it => it.data.1) (fun it => some it.data.2) :=
  counts_iter (h := hooksRange) (·.1) (some ·.2) (by
    intro d w d' w' h
    obtain ⟨h1, rfl⟩ := range_inv h
    exact ⟨rfl, fun m e => by cases e; exact h1, rfl⟩) p

theorem countsFrom (p : Parser σ I U E) : Counts (iterNext hooksFrom p)
    (fun it => it.data) (fun _ => none) :=
  counts_iter (h := hooksFrom) id (fun _ => none) (by
    intro d w d' w' h
    exact ⟨decSat_inv h, by simp, rfl⟩) p

theorem countsFull (p : Parser σ I U E) : Counts (iterNext hooksFull p)
    (fun _ => 0) (fun _ => none) :=
  counts_iter (h := hooksFull) (fun _ => 0) (fun _ => none) (by
    intro d w d' w' h
    exact ⟨rfl, by simp, rfl⟩) p

theorem countsTo (p : Parser σ I U E) : Counts (iterNext hooksTo p)
    (fun _ => 0) (fun it => some it.data) :=
  counts_iter (h := hooksTo) (fun _ => 0) some (by
    intro d w d' w' h
    obtain ⟨h1, rfl⟩ := dec_inv h
    exact ⟨rfl, fun m e => by cases e; exact h1, rfl⟩) p

theorem countsExactly (p : Parser σ I U E) : Counts (iterNext hooksExactly p)
    (fun it => it.data) (fun it => some it.data) :=
  counts_iter (h := hooksExactly) id some (by
    intro d w d' w' h
    obtain ⟨h1, rfl⟩ := dec_inv h
    exact ⟨rfl, fun m e => by cases e; exact h1, rfl⟩) p

/-! The iterators of `many_till`. -/

theorem countsTillRange (p : Parser σ I U E) (end_ : Parser σ I V N) :
    Counts (iterTillNext (hooksTillRange end_) p)
      (fun it => it.data.1) (fun it => some it.data.2) :=
  counts_till (h := hooksTillRange end_) (·.1) (some ·.2) (by
    intro it w x it' w' h
    simp only [hooksTillRange] at h
    have main : ∀ {it1 : IterTill I E (Nat × Nat)} {stop : Bool} {w1 : σ}, it1.data = it.data →
        (if stop = true then pure (true, it1)
          else if (it1.data.2 == 0) = true then do
            let y ← endTest end_ it1
            pure (true, y.2)
          else pure (false, it1) : M σ (Bool × IterTill I E (Nat × Nat))) w1 = .ok ((x, it'), w') →
        it'.data = it.data := by
      intro it1 stop w1 e1 h2
      split at h2
      · cases h2; exact e1
      · split at h2
        · obtain ⟨⟨stop, it2⟩, w2, h3, h4⟩ := M.bind_eq_ok.mp h2
          cases h4
          exact (endTest_data h3).trans e1
        · cases h2; exact e1
    split at h
    · obtain ⟨⟨stop, it1⟩, w1, h1, h2⟩ := M.bind_eq_ok.mp h
      exact main (endTest_data h1) h2
    · obtain ⟨⟨stop, it1⟩, w1, h1, h2⟩ := M.bind_eq_ok.mp h
      cases h1
      exact main rfl h2) (by
    intro d w d' w' h
    obtain ⟨h1, rfl⟩ := range_inv h
    exact ⟨rfl, fun m e => by cases e; exact h1, rfl⟩) p

theorem countsTillFrom (p : Parser σ I U E) (end_ : Parser σ I V N) :
    Counts (iterTillNext (hooksTillFrom end_) p) (fun it => it.data) (fun _ => none) :=
  counts_till (h := hooksTillFrom end_) id (fun _ => none) (by
    intro it w x it' w' h
    change (if it.data == 0 then endTest end_ it else pure (false, it) : M σ _) w = _ at h
    split at h
    · exact endTest_data h
    · cases h; rfl) (by
    intro d w d' w' h
    exact ⟨decSat_inv h, by simp, rfl⟩) p

theorem countsTillFull (p : Parser σ I U E) (end_ : Parser σ I V N) :
    Counts (iterTillNext (hooksTillFull end_) p) (fun _ => 0) (fun _ => none) :=
  counts_till (h := hooksTillFull end_) (fun _ => 0) (fun _ => none)
    (by intro it w x it' w' h; exact endTest_data h) (by
    intro d w d' w' h
    exact ⟨rfl, by simp, rfl⟩) p

theorem countsTillTo (p : Parser σ I U E) (end_ : Parser σ I V N) :
    Counts (iterTillNext (hooksTillTo end_) p) (fun _ => 0) (fun it => some it.data) :=
  counts_till (h := hooksTillTo end_) (fun _ => 0) some (by
    intro it w x it' w' h
    obtain ⟨⟨stop, it1⟩, w1, h1, h2⟩ := M.bind_eq_ok.mp h
    have e1 := endTest_data h1
    dsimp only at h2
    split at h2 <;> cases h2 <;> exact e1) (by
    intro d w d' w' h
    obtain ⟨h1, rfl⟩ := dec_inv h
    exact ⟨rfl, fun m e => by cases e; exact h1, rfl⟩) p

theorem countsTillExactly (p : Parser σ I U E) (end_ : Parser σ I V N) :
    Counts (iterTillNext (hooksTillExactly end_) p)
      (fun it => it.data) (fun it => some it.data) :=
  counts_till (h := hooksTillExactly end_) id some (by
    intro it w x it' w' h
    change (if it.data == 0 then (do let (_, it) ← endTest end_ it; pure (true, it))
      else pure (false, it) : M σ _) w = _ at h
    split at h
    · obtain ⟨⟨stop, it1⟩, w1, h1, h2⟩ := M.bind_eq_ok.mp h
      cases h2
      exact endTest_data h1
    · cases h; rfl) (by
    intro d w d' w' h
    obtain ⟨h1, rfl⟩ := dec_inv h
    exact ⟨rfl, fun m e => by cases e; exact h1, rfl⟩) p

end Hint

end Chomp
