import Verif.Lemmas.Repeat
import Verif.Spec.SepBy

namespace Chomp

open Spec

namespace Sep

/-- Outcome of a parser with the flag `item` added: set if an item was read, otherwise as before. -/
def flag (f : Bool) : Res (ParseResult I U E × σ) → Res (ParseResult I U E × (σ × Bool))
  | .ok (.data i u, w) => .ok (.data i u, (w, true))
  | .ok (r, w) => .ok (r, (w, f))
  | .panic => .panic
  | .ub => .ub
  | .div => .div

theorem sepParser_eq (conv : N → E) (p : Parser σ I U E) (sep : Parser σ I V N) (i : Input I)
    (w : σ) (f : Bool) :
    Comb.sepParser conv p sep i (w, f) =
      flag f (if f then sepThen conv p sep i w else p i w) := by
  cases f with
  | false =>
    show (Comb.sepParser conv p sep i) (w, false) = flag false (p i w)
    unfold Comb.sepParser
    rw [M.bind_ok (show (get : M (σ × Bool) (σ × Bool)) (w, false) = .ok ((w, false), (w, false)) from rfl)]
    simp only [Bool.false_eq_true, if_false]
    rw [M.bind_ok (M.pure_apply _ _)]
    simp only [Input.ret, ParseResult.andThen, ParseResult.bind_data]
    rw [M.bind_apply]
    simp only [Comb.withLocal]
    cases hp : p i w with
    | ok x =>
      obtain ⟨x, w'⟩ := x
      cases x <;> rfl
    | _ => rfl
  | true =>
    show (Comb.sepParser conv p sep i) (w, true) = flag true (sepThen conv p sep i w)
    unfold Comb.sepParser
    rw [M.bind_ok (show (get : M (σ × Bool) (σ × Bool)) (w, true) = .ok ((w, true), (w, true)) from rfl)]
    simp only [if_true]
    rw [M.bind_apply]
    simp only [Comb.withLocal, sepThen]
    cases hs : sep i w with
    | ok x =>
      obtain ⟨x, w'⟩ := x
      cases x with
      | data b v =>
        simp only [Res.bind_ok, ParseResult.map]
        refine (M.bind_ok (a := ParseResult.data b ()) (w' := (w', true)) rfl).trans ?_
        simp only [ParseResult.andThen, ParseResult.bind_data]
        rw [M.bind_apply]
        simp only [Comb.withLocal]
        cases hp : p b w' with
        | ok x =>
          obtain ⟨x, w'⟩ := x
          cases x <;> rfl
        | _ => rfl
      | error b e => rfl
      | incomplete n => rfl
    | _ => rfl

theorem flag_data {f : Bool} {r : Res (ParseResult I U E × σ)} {i u w b} :
    flag f r = .ok (.data i u, (w, b)) ↔ r = .ok (.data i u, w) ∧ b = true := by
  match r with
  | .ok (.data i u, w) =>
    simp only [flag, Res.ok.injEq, Prod.mk.injEq]
    constructor
    · rintro ⟨h, rfl, rfl⟩; exact ⟨⟨h, rfl⟩, rfl⟩
    · rintro ⟨⟨h, rfl⟩, rfl⟩; exact ⟨h, rfl, rfl⟩
  | .ok (.error _ _, w) => simp [flag]
  | .ok (.incomplete _, w) => simp [flag]
  | .panic => simp [flag]
  | .ub => simp [flag]
  | .div => simp [flag]

theorem reps_true {conv : N → E} {p : Parser σ I U E} {sep : Parser σ I V N} {i w us i' w' b} :
    Reps (Comb.sepParser conv p sep) i (w, true) us i' (w', b) ↔
      Reps (sepThen conv p sep) i w us i' w' ∧ b = true := by
  constructor
  · intro h
    generalize hw : (w, true) = s at h
    generalize hw' : (w', b) = s' at h
    induction h generalizing w with
    | nil => subst hw; cases hw'; exact ⟨.nil, rfl⟩
    | cons h1 hrest ih =>
      rename_i i2 w2 i1 u w1 us i' w4
      subst hw
      rw [sepParser_eq, if_pos rfl] at h1
      obtain ⟨w3, b3⟩ := w1
      obtain ⟨h2, rfl⟩ := flag_data.mp h1
      obtain ⟨h3, hb⟩ := ih rfl hw'
      exact ⟨.cons h2 h3, hb⟩
  · rintro ⟨h, rfl⟩
    induction h with
    | nil => exact .nil
    | cons h1 _ ih =>
      exact .cons (by rw [sepParser_eq, if_pos rfl, flag_data]; exact ⟨h1, rfl⟩) ih

theorem reps_false {conv : N → E} {p : Parser σ I U E} {sep : Parser σ I V N} {i w us i' w' b} :
    Reps (Comb.sepParser conv p sep) i (w, false) us i' (w', b) ↔
      SepReps p (sepThen conv p sep) i w us i' w' ∧ b = !us.isEmpty := by
  constructor
  · intro h
    cases h with
    | nil => exact ⟨.nil, rfl⟩
    | cons h1 h2 =>
      rename_i i1 u w1 us
      obtain ⟨w3, b3⟩ := w1
      rw [sepParser_eq, if_neg (by simp)] at h1
      obtain ⟨h3, rfl⟩ := flag_data.mp h1
      obtain ⟨h4, rfl⟩ := reps_true.mp h2
      exact ⟨.cons h3 h4, rfl⟩
  · rintro ⟨h, rfl⟩
    cases h with
    | nil => exact .nil
    | cons h1 h2 =>
      exact .cons (by rw [sepParser_eq, if_neg (by simp), flag_data]; exact ⟨h1, rfl⟩)
        (reps_true.mpr ⟨h2, rfl⟩)

/-- The attempt after `us`. -/
theorem sepParser_attempt (conv : N → E) (p : Parser σ I U E) (sep : Parser σ I V N) (us : List U)
    (i : Input I) (w : σ) :
    Comb.sepParser conv p sep i (w, !us.isEmpty) =
      flag (!us.isEmpty) (attempt p (sepThen conv p sep) us i w) := by
  rw [sepParser_eq]
  cases us <;> rfl

/-- Dropping the flag. -/
def unflag : Res (α × (σ × Bool)) → Res (α × σ)
  | .ok (a, w) => .ok (a, w.1)
  | .panic => .panic
  | .ub => .ub
  | .div => .div

theorem newLocal_eq (t : Bool) (x : M (σ × Bool) α) (w : σ) :
    Comb.newLocal t x w = unflag (x (w, t)) := by
  unfold Comb.newLocal unflag
  cases x (w, t) <;> rfl

theorem flag_error {f : Bool} {r : Res (ParseResult I U E × σ)} {b e w g} :
    flag f r = .ok (.error b e, (w, g)) ↔ r = .ok (.error b e, w) ∧ g = f := by
  match r with
  | .ok (.data i u, w) => simp [flag]
  | .ok (.error _ _, w) =>
    simp only [flag, Res.ok.injEq, Prod.mk.injEq]
    constructor
    · rintro ⟨h, rfl, rfl⟩; exact ⟨⟨h, rfl⟩, rfl⟩
    · rintro ⟨⟨h, rfl⟩, rfl⟩; exact ⟨h, rfl, rfl⟩
  | .ok (.incomplete _, w) => simp [flag]
  | .panic => simp [flag]
  | .ub => simp [flag]
  | .div => simp [flag]

theorem flag_incomplete {f : Bool} {r : Res (ParseResult I U E × σ)} {n w g} :
    flag f r = .ok (.incomplete n, (w, g)) ↔ r = .ok (.incomplete n, w) ∧ g = f := by
  match r with
  | .ok (.data i u, w) => simp [flag]
  | .ok (.incomplete _, w) =>
    simp only [flag, Res.ok.injEq, Prod.mk.injEq]
    constructor
    · rintro ⟨h, rfl, rfl⟩; exact ⟨⟨h, rfl⟩, rfl⟩
    · rintro ⟨⟨h, rfl⟩, rfl⟩; exact ⟨h, rfl, rfl⟩
  | .ok (.error _ _, w) => simp [flag]
  | .panic => simp [flag]
  | .ub => simp [flag]
  | .div => simp [flag]

theorem flag_crash {f : Bool} {r : Res (ParseResult I U E × σ)} :
    (flag f r = .panic ↔ r = .panic) ∧ (flag f r = .ub ↔ r = .ub) ∧ (flag f r = .div ↔ r = .div) := by
  match r with
  | .ok (.data i u, w) => simp [flag]
  | .ok (.incomplete _, w) => simp [flag]
  | .ok (.error _ _, w) => simp [flag]
  | .panic => simp [flag]
  | .ub => simp [flag]
  | .div => simp [flag]

theorem outcome_iff {conv : N → E} {p : Parser σ I U E} {sep : Parser σ I V N} {min i w o} :
    (∃ o', RepOutcome (Comb.sepParser conv p sep) min none i (w, false) o' ∧ unflag o' = o) ↔
      SepOutcome p (sepThen conv p sep) min i w o := by
  have below : ∀ k, Below k none := by intro k m h; cases h
  constructor
  · rintro ⟨o', h, rfl⟩
    cases h with
    | full _ h => cases h
    | stop_error hr hb hp hl =>
      rename_i us i' w' b e w''
      obtain ⟨w', f⟩ := w'
      obtain ⟨hs, rfl⟩ := reps_false.mp hr
      rw [sepParser_attempt] at hp
      obtain ⟨w'', g⟩ := w''
      exact .stop_error hs (flag_error.mp hp).1 hl
    | stop_last hr hb hp hl hm =>
      rename_i us i' w' n w''
      obtain ⟨w', f⟩ := w'
      obtain ⟨hs, rfl⟩ := reps_false.mp hr
      rw [sepParser_attempt] at hp
      obtain ⟨w'', g⟩ := w''
      exact .stop_last hs (flag_incomplete.mp hp).1 hl hm
    | error hr hb hp hl =>
      rename_i us i' w' b e w''
      obtain ⟨w', f⟩ := w'
      obtain ⟨hs, rfl⟩ := reps_false.mp hr
      rw [sepParser_attempt] at hp
      obtain ⟨w'', g⟩ := w''
      exact .error hs (flag_error.mp hp).1 hl
    | incomplete hr hb hp hl =>
      rename_i us i' w' n w''
      obtain ⟨w', f⟩ := w'
      obtain ⟨hs, rfl⟩ := reps_false.mp hr
      rw [sepParser_attempt] at hp
      obtain ⟨w'', g⟩ := w''
      exact .incomplete hs (flag_incomplete.mp hp).1 hl
    | panic hr hb hp =>
      rename_i us i' w'
      obtain ⟨w', f⟩ := w'
      obtain ⟨hs, rfl⟩ := reps_false.mp hr
      rw [sepParser_attempt] at hp
      exact .panic hs (flag_crash.1.mp hp)
    | ub hr hb hp =>
      rename_i us i' w'
      obtain ⟨w', f⟩ := w'
      obtain ⟨hs, rfl⟩ := reps_false.mp hr
      rw [sepParser_attempt] at hp
      exact .ub hs (flag_crash.2.1.mp hp)
  · intro h
    cases h with
    | stop_error hr hp hl =>
      exact ⟨_, .stop_error (reps_false.mpr ⟨hr, rfl⟩) (below _)
        (by rw [sepParser_attempt]; exact flag_error.mpr ⟨hp, rfl⟩) hl, rfl⟩
    | stop_last hr hp hl hm =>
      exact ⟨_, .stop_last (reps_false.mpr ⟨hr, rfl⟩) (below _)
        (by rw [sepParser_attempt]; exact flag_incomplete.mpr ⟨hp, rfl⟩) hl hm, rfl⟩
    | error hr hp hl =>
      exact ⟨_, .error (reps_false.mpr ⟨hr, rfl⟩) (below _)
        (by rw [sepParser_attempt]; exact flag_error.mpr ⟨hp, rfl⟩) hl, rfl⟩
    | incomplete hr hp hl =>
      exact ⟨_, .incomplete (reps_false.mpr ⟨hr, rfl⟩) (below _)
        (by rw [sepParser_attempt]; exact flag_incomplete.mpr ⟨hp, rfl⟩) hl, rfl⟩
    | panic hr hp =>
      exact ⟨_, .panic (reps_false.mpr ⟨hr, rfl⟩) (below _)
        (by rw [sepParser_attempt]; exact flag_crash.1.mpr hp), rfl⟩
    | ub hr hp =>
      exact ⟨_, .ub (reps_false.mpr ⟨hr, rfl⟩) (below _)
        (by rw [sepParser_attempt]; exact flag_crash.2.1.mpr hp), rfl⟩

theorem sep_iff {conv : N → E} {p : Parser σ I U E} {sep : Parser σ I V N} {min i w o}
    (ho : o ≠ .div) :
    unflag (Rep.core (Collect.vec U) (Comb.sepParser conv p sep) min none i (w, false)) = o ↔
      SepOutcome p (sepThen conv p sep) min i w o := by
  rw [← outcome_iff]
  have hlh : ∀ m, none = some m → min ≤ m := by intro m h; cases h
  constructor
  · intro h
    refine ⟨_, (Rep.core_vec_iff hlh ?_).mp rfl, h⟩
    intro hd; rw [hd] at h; exact ho h.symm
  · rintro ⟨o', h, rfl⟩
    rw [(Rep.core_vec_iff hlh (by rintro rfl; cases h)).mpr h]

end Sep

end Chomp
