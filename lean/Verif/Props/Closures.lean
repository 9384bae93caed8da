import Verif.Lemmas.Closures
import Verif.Props.Productive
import Verif.Props.Twins

/-
C72: closures handed to the parsers. They may have effects, panic or not return.
-/

namespace Chomp.Props

open Spec

/-! ### In what order, and how often, closures are called -/

/-- `take_while` asks about the items one after the other until it gets the first no. -/
theorem C72_take_while (f : I → M σ Bool) (i : Input I) (w : σ) :
    (∀ j t w', Closures.takeWhile f i w = .ok (.data j t, w') ↔
      j.mode = i.mode ∧ i.buf = t ++ j.buf ∧ ∃ w1, Says f true t w w1 ∧
        match j.buf with
        | [] => i.mode = .endOfInput ∧ w' = w1
        | c :: _ => f c w1 = .ok (false, w')) ∧
    (∀ n w', Closures.takeWhile f i w = .ok (.incomplete n, w') ↔
      n = 1 ∧ i.mode = .default ∧ Says f true i.buf w w') ∧
    (∀ b e w', Closures.takeWhile f i w ≠ .ok (.error b e, w')) ∧
    (∀ a : Abrupt, Closures.takeWhile f i w = a.res ↔
      ∃ pre c rest w1, i.buf = pre ++ c :: rest ∧ Says f true pre w w1 ∧ f c w1 = a.res) := by
  refine ⟨?_, ?_, ?_, ?_⟩
  · intro j t w'
    constructor
    · intro h
      rcases Closures.says_cases f true i.buf w with ⟨w1, h1⟩ | ⟨pre, c, rest, w1, w2, hb, h1, hc⟩ |
        ⟨a, pre, c, rest, w1, hb, h1, hc⟩
      · rw [Closures.takeWhile_none h1] at h
        cases hm : i.mode with
        | default => rw [hm] at h; simp at h
        | endOfInput =>
          rw [hm] at h
          simp only [Res.ok.injEq, Prod.mk.injEq, ParseResult.data.injEq] at h
          obtain ⟨⟨rfl, rfl⟩, rfl⟩ := h
          exact ⟨rfl, by simp, w1, h1, rfl, rfl⟩
      · rw [Closures.takeWhile_some hb h1 hc] at h
        simp only [Res.ok.injEq, Prod.mk.injEq, ParseResult.data.injEq] at h
        obtain ⟨⟨rfl, rfl⟩, rfl⟩ := h
        exact ⟨rfl, hb, w1, h1, hc⟩
      · rw [Closures.takeWhile_abrupt hb h1 hc] at h
        exact absurd h (Closures.res_ne _ _)
    · rintro ⟨hm, hb, w1, h1, hr⟩
      obtain ⟨m, r⟩ := j
      dsimp only at hm hb hr
      subst hm
      cases r with
      | nil =>
        obtain ⟨hm, rfl⟩ := hr
        rw [List.append_nil] at hb
        subst hb
        rw [Closures.takeWhile_none h1, hm]
      | cons c r => exact Closures.takeWhile_some hb h1 hr
  · intro n w'
    constructor
    · intro h
      rcases Closures.says_cases f true i.buf w with ⟨w1, h1⟩ | ⟨pre, c, rest, w1, w2, hb, h1, hc⟩ |
        ⟨a, pre, c, rest, w1, hb, h1, hc⟩
      · rw [Closures.takeWhile_none h1] at h
        cases hm : i.mode with
        | default =>
          rw [hm] at h
          simp only [Res.ok.injEq, Prod.mk.injEq, ParseResult.incomplete.injEq] at h
          obtain ⟨rfl, rfl⟩ := h
          exact ⟨rfl, rfl, h1⟩
        | endOfInput => rw [hm] at h; simp at h
      · rw [Closures.takeWhile_some hb h1 hc] at h
        simp at h
      · rw [Closures.takeWhile_abrupt hb h1 hc] at h
        exact absurd h (Closures.res_ne _ _)
    · rintro ⟨rfl, hm, h1⟩
      rw [Closures.takeWhile_none h1, hm]
  · intro b e w' h
    rcases Closures.says_cases f true i.buf w with ⟨w1, h1⟩ | ⟨pre, c, rest, w1, w2, hb, h1, hc⟩ |
      ⟨a, pre, c, rest, w1, hb, h1, hc⟩
    · rw [Closures.takeWhile_none h1] at h
      cases hm : i.mode <;> rw [hm] at h <;> simp at h
    · rw [Closures.takeWhile_some hb h1 hc] at h
      simp at h
    · rw [Closures.takeWhile_abrupt hb h1 hc] at h
      exact absurd h (Closures.res_ne _ _)
  · intro a
    constructor
    · intro h
      rcases Closures.says_cases f true i.buf w with ⟨w1, h1⟩ | ⟨pre, c, rest, w1, w2, hb, h1, hc⟩ |
        ⟨a', pre, c, rest, w1, hb, h1, hc⟩
      · rw [Closures.takeWhile_none h1] at h
        exact absurd h.symm (Closures.res_ne _ _)
      · rw [Closures.takeWhile_some hb h1 hc] at h
        exact absurd h.symm (Closures.res_ne _ _)
      · rw [Closures.takeWhile_abrupt hb h1 hc] at h
        exact ⟨pre, c, rest, w1, hb, h1, Closures.res_inj h ▸ hc⟩
    · rintro ⟨pre, c, rest, w1, hb, h1, hc⟩
      exact Closures.takeWhile_abrupt hb h1 hc

/-- `take_while1` likewise, and a no to the first question is an error at that place. -/
theorem C72_take_while1 (v : Bool) (f : I → M σ Bool) (i : Input I) (w : σ) :
    (∀ j t w', Closures.takeWhile1 v f i w = .ok (.data j t, w') ↔
      j.mode = i.mode ∧ i.buf = t ++ j.buf ∧ t ≠ [] ∧ ∃ w1, Says f true t w w1 ∧
        match j.buf with
        | [] => i.mode = .endOfInput ∧ w' = w1
        | c :: _ => f c w1 = .ok (false, w')) ∧
    (∀ n w', Closures.takeWhile1 v f i w = .ok (.incomplete n, w') ↔
      n = 1 ∧ (i.mode = .default ∨ i.buf = []) ∧ Says f true i.buf w w') ∧
    (∀ b e w', Closures.takeWhile1 v f i w = .ok (.error b e, w') ↔
      b = i.buf ∧ e = (if v then .unexpected else .generic) ∧
        ∃ c r, i.buf = c :: r ∧ f c w = .ok (false, w')) ∧
    (∀ a : Abrupt, Closures.takeWhile1 v f i w = a.res ↔
      ∃ pre c rest w1, i.buf = pre ++ c :: rest ∧ Says f true pre w w1 ∧ f c w1 = a.res) := by
  have key := Closures.says_cases f true i.buf w
  refine ⟨?_, ?_, ?_, ?_⟩
  · intro j t w'
    constructor
    · intro h
      rcases key with ⟨w1, h1⟩ | ⟨pre, c, rest, w1, w2, hb, h1, hc⟩ | ⟨a, pre, c, rest, w1, hb, h1, hc⟩
      · rw [Closures.takeWhile1_none h1] at h
        by_cases hm : i.mode = .endOfInput ∧ i.buf ≠ []
        · rw [if_pos hm] at h
          simp only [Res.ok.injEq, Prod.mk.injEq, ParseResult.data.injEq] at h
          obtain ⟨⟨rfl, rfl⟩, rfl⟩ := h
          exact ⟨hm.1.symm, by simp, hm.2, w1, h1, hm.1, rfl⟩
        · rw [if_neg hm] at h; simp at h
      · rw [Closures.takeWhile1_some hb h1 hc] at h
        by_cases hp : pre = []
        · rw [if_pos hp] at h; simp at h
        · rw [if_neg hp] at h
          simp only [Res.ok.injEq, Prod.mk.injEq, ParseResult.data.injEq] at h
          obtain ⟨⟨rfl, rfl⟩, rfl⟩ := h
          exact ⟨rfl, hb, hp, w1, h1, hc⟩
      · rw [Closures.takeWhile1_abrupt hb h1 hc] at h
        exact absurd h (Closures.res_ne _ _)
    · rintro ⟨hm, hb, ht, w1, h1, hr⟩
      obtain ⟨m, r⟩ := j
      dsimp only at hm hb hr
      subst hm
      cases r with
      | nil =>
        obtain ⟨hm, rfl⟩ := hr
        rw [List.append_nil] at hb
        subst hb
        rw [Closures.takeWhile1_none h1, if_pos ⟨hm, ht⟩, hm]
      | cons c r => rw [Closures.takeWhile1_some hb h1 hr, if_neg ht]
  · intro n w'
    constructor
    · intro h
      rcases key with ⟨w1, h1⟩ | ⟨pre, c, rest, w1, w2, hb, h1, hc⟩ | ⟨a, pre, c, rest, w1, hb, h1, hc⟩
      · rw [Closures.takeWhile1_none h1] at h
        by_cases hm : i.mode = .endOfInput ∧ i.buf ≠ []
        · rw [if_pos hm] at h; simp at h
        · rw [if_neg hm] at h
          simp only [Res.ok.injEq, Prod.mk.injEq, ParseResult.incomplete.injEq] at h
          obtain ⟨rfl, rfl⟩ := h
          refine ⟨rfl, ?_, h1⟩
          cases hi : i.mode with
          | default => exact .inl rfl
          | endOfInput => exact .inr (Classical.byContradiction fun hn => hm ⟨hi, hn⟩)
      · rw [Closures.takeWhile1_some hb h1 hc] at h
        split at h <;> simp at h
      · rw [Closures.takeWhile1_abrupt hb h1 hc] at h
        exact absurd h (Closures.res_ne _ _)
    · rintro ⟨rfl, hm, h1⟩
      rw [Closures.takeWhile1_none h1, if_neg]
      rintro ⟨h2, h3⟩
      rcases hm with hm | hm
      · rw [hm] at h2; cases h2
      · exact h3 hm
  · intro b e w'
    constructor
    · intro h
      rcases key with ⟨w1, h1⟩ | ⟨pre, c, rest, w1, w2, hb, h1, hc⟩ | ⟨a, pre, c, rest, w1, hb, h1, hc⟩
      · rw [Closures.takeWhile1_none h1] at h
        split at h <;> simp at h
      · rw [Closures.takeWhile1_some hb h1 hc] at h
        by_cases hp : pre = []
        · rw [if_pos hp] at h
          simp only [Res.ok.injEq, Prod.mk.injEq, ParseResult.error.injEq] at h
          obtain ⟨⟨rfl, rfl⟩, rfl⟩ := h
          subst hp
          cases h1
          exact ⟨rfl, rfl, c, rest, hb, hc⟩
        · rw [if_neg hp] at h; simp at h
      · rw [Closures.takeWhile1_abrupt hb h1 hc] at h
        exact absurd h (Closures.res_ne _ _)
    · rintro ⟨rfl, rfl, c, r, hb, hc⟩
      rw [Closures.takeWhile1_some (pre := []) hb .nil hc, if_pos rfl]
      rfl
  · intro a
    constructor
    · intro h
      rcases key with ⟨w1, h1⟩ | ⟨pre, c, rest, w1, w2, hb, h1, hc⟩ | ⟨a', pre, c, rest, w1, hb, h1, hc⟩
      · rw [Closures.takeWhile1_none h1] at h
        exact absurd h.symm (Closures.res_ne _ _)
      · rw [Closures.takeWhile1_some hb h1 hc] at h
        exact absurd h.symm (Closures.res_ne _ _)
      · rw [Closures.takeWhile1_abrupt hb h1 hc] at h
        exact ⟨pre, c, rest, w1, hb, h1, Closures.res_inj h ▸ hc⟩
    · rintro ⟨pre, c, rest, w1, hb, h1, hc⟩
      exact Closures.takeWhile1_abrupt hb h1 hc

/-- `take_till` asks until it gets the first yes. -/
theorem C72_take_till (f : I → M σ Bool) (i : Input I) (w : σ) :
    (∀ j t w', Closures.takeTill f i w = .ok (.data j t, w') ↔
      j.mode = i.mode ∧ i.buf = t ++ j.buf ∧ ∃ c r w1, j.buf = c :: r ∧ Says f false t w w1 ∧
        f c w1 = .ok (true, w')) ∧
    (∀ n w', Closures.takeTill f i w = .ok (.incomplete n, w') ↔
      n = 1 ∧ Says f false i.buf w w') ∧
    (∀ b e w', Closures.takeTill f i w ≠ .ok (.error b e, w')) ∧
    (∀ a : Abrupt, Closures.takeTill f i w = a.res ↔
      ∃ pre c rest w1, i.buf = pre ++ c :: rest ∧ Says f false pre w w1 ∧ f c w1 = a.res) := by
  have key := Closures.says_cases f false i.buf w
  refine ⟨?_, ?_, ?_, ?_⟩
  · intro j t w'
    constructor
    · intro h
      rcases key with ⟨w1, h1⟩ | ⟨pre, c, rest, w1, w2, hb, h1, hc⟩ | ⟨a, pre, c, rest, w1, hb, h1, hc⟩
      · rw [Closures.takeTill_none h1] at h; simp at h
      · rw [Closures.takeTill_some hb h1 hc] at h
        simp only [Res.ok.injEq, Prod.mk.injEq, ParseResult.data.injEq] at h
        obtain ⟨⟨rfl, rfl⟩, rfl⟩ := h
        exact ⟨rfl, hb, c, rest, w1, rfl, h1, hc⟩
      · rw [Closures.takeTill_abrupt hb h1 hc] at h
        exact absurd h (Closures.res_ne _ _)
    · rintro ⟨hm, hb, c, r, w1, hr, h1, hc⟩
      obtain ⟨m, r'⟩ := j
      dsimp only at hm hb hr
      subst hm hr
      exact Closures.takeTill_some hb h1 hc
  · intro n w'
    constructor
    · intro h
      rcases key with ⟨w1, h1⟩ | ⟨pre, c, rest, w1, w2, hb, h1, hc⟩ | ⟨a, pre, c, rest, w1, hb, h1, hc⟩
      · rw [Closures.takeTill_none h1] at h
        simp only [Res.ok.injEq, Prod.mk.injEq, ParseResult.incomplete.injEq] at h
        obtain ⟨rfl, rfl⟩ := h
        exact ⟨rfl, h1⟩
      · rw [Closures.takeTill_some hb h1 hc] at h; simp at h
      · rw [Closures.takeTill_abrupt hb h1 hc] at h
        exact absurd h (Closures.res_ne _ _)
    · rintro ⟨rfl, h1⟩
      exact Closures.takeTill_none h1
  · intro b e w' h
    rcases key with ⟨w1, h1⟩ | ⟨pre, c, rest, w1, w2, hb, h1, hc⟩ | ⟨a, pre, c, rest, w1, hb, h1, hc⟩
    · rw [Closures.takeTill_none h1] at h; simp at h
    · rw [Closures.takeTill_some hb h1 hc] at h; simp at h
    · rw [Closures.takeTill_abrupt hb h1 hc] at h
      exact absurd h (Closures.res_ne _ _)
  · intro a
    constructor
    · intro h
      rcases key with ⟨w1, h1⟩ | ⟨pre, c, rest, w1, w2, hb, h1, hc⟩ | ⟨a', pre, c, rest, w1, hb, h1, hc⟩
      · rw [Closures.takeTill_none h1] at h
        exact absurd h.symm (Closures.res_ne _ _)
      · rw [Closures.takeTill_some hb h1 hc] at h
        exact absurd h.symm (Closures.res_ne _ _)
      · rw [Closures.takeTill_abrupt hb h1 hc] at h
        exact ⟨pre, c, rest, w1, hb, h1, Closures.res_inj h ▸ hc⟩
    · rintro ⟨pre, c, rest, w1, hb, h1, hc⟩
      exact Closures.takeTill_abrupt hb h1 hc

/-- `scan` feeds the items to the closure one after the other, with the state it returned last, until it
returns `None`; the `unwrap` in it never fails. -/
theorem C72_scan (s : S) (f : S → I → M σ (Option S)) (i : Input I) (w : σ) :
    (∀ j t w', Closures.scan s f i w = .ok (.data j t, w') ↔
      j.mode = i.mode ∧ i.buf = t ++ j.buf ∧ ∃ c r s1 w1, j.buf = c :: r ∧ Walks f s t w s1 w1 ∧
        f s1 c w1 = .ok (none, w')) ∧
    (∀ n w', Closures.scan s f i w = .ok (.incomplete n, w') ↔
      n = 1 ∧ ∃ s', Walks f s i.buf w s' w') ∧
    (∀ b e w', Closures.scan s f i w ≠ .ok (.error b e, w')) ∧
    (∀ a : Abrupt, Closures.scan s f i w = a.res ↔
      ∃ pre c rest s1 w1, i.buf = pre ++ c :: rest ∧ Walks f s pre w s1 w1 ∧ f s1 c w1 = a.res) := by
  have key := Closures.walks_cases f s i.buf w
  refine ⟨?_, ?_, ?_, ?_⟩
  · intro j t w'
    constructor
    · intro h
      rcases key with ⟨s1, w1, h1⟩ | ⟨pre, c, rest, s1, w1, w2, hb, h1, hc⟩ |
        ⟨a, pre, c, rest, s1, w1, hb, h1, hc⟩
      · rw [Closures.scan_data_none h1] at h; simp at h
      · rw [Closures.scan_data_some hb h1 hc] at h
        simp only [Res.ok.injEq, Prod.mk.injEq, ParseResult.data.injEq] at h
        obtain ⟨⟨rfl, rfl⟩, rfl⟩ := h
        exact ⟨rfl, hb, c, rest, s1, w1, rfl, h1, hc⟩
      · rw [Closures.scan_data_abrupt hb h1 hc] at h
        exact absurd h (Closures.res_ne _ _)
    · rintro ⟨hm, hb, c, r, s1, w1, hr, h1, hc⟩
      obtain ⟨m, r'⟩ := j
      dsimp only at hm hb hr
      subst hm hr
      exact Closures.scan_data_some hb h1 hc
  · intro n w'
    constructor
    · intro h
      rcases key with ⟨s1, w1, h1⟩ | ⟨pre, c, rest, s1, w1, w2, hb, h1, hc⟩ |
        ⟨a, pre, c, rest, s1, w1, hb, h1, hc⟩
      · rw [Closures.scan_data_none h1] at h
        simp only [Res.ok.injEq, Prod.mk.injEq, ParseResult.incomplete.injEq] at h
        obtain ⟨rfl, rfl⟩ := h
        exact ⟨rfl, s1, h1⟩
      · rw [Closures.scan_data_some hb h1 hc] at h; simp at h
      · rw [Closures.scan_data_abrupt hb h1 hc] at h
        exact absurd h (Closures.res_ne _ _)
    · rintro ⟨rfl, s1, h1⟩
      exact Closures.scan_data_none h1
  · intro b e w' h
    rcases key with ⟨s1, w1, h1⟩ | ⟨pre, c, rest, s1, w1, w2, hb, h1, hc⟩ |
      ⟨a, pre, c, rest, s1, w1, hb, h1, hc⟩
    · rw [Closures.scan_data_none h1] at h; simp at h
    · rw [Closures.scan_data_some hb h1 hc] at h; simp at h
    · rw [Closures.scan_data_abrupt hb h1 hc] at h
      exact absurd h (Closures.res_ne _ _)
  · intro a
    constructor
    · intro h
      rcases key with ⟨s1, w1, h1⟩ | ⟨pre, c, rest, s1, w1, w2, hb, h1, hc⟩ |
        ⟨a', pre, c, rest, s1, w1, hb, h1, hc⟩
      · rw [Closures.scan_data_none h1] at h
        exact absurd h.symm (Closures.res_ne _ _)
      · rw [Closures.scan_data_some hb h1 hc] at h
        exact absurd h.symm (Closures.res_ne _ _)
      · rw [Closures.scan_data_abrupt hb h1 hc] at h
        exact ⟨pre, c, rest, s1, w1, hb, h1, Closures.res_inj h ▸ hc⟩
    · rintro ⟨pre, c, rest, s1, w1, hb, h1, hc⟩
      exact Closures.scan_data_abrupt hb h1 hc

/-- `run_scanner` is `scan` and also returns the last state. -/
theorem C72_run_scanner (s : S) (f : S → I → M σ (Option S)) (i : Input I) (w : σ) :
    (∀ j t s1 w', Closures.runScanner s f i w = .ok (.data j (t, s1), w') ↔
      j.mode = i.mode ∧ i.buf = t ++ j.buf ∧ ∃ c r w1, j.buf = c :: r ∧ Walks f s t w s1 w1 ∧
        f s1 c w1 = .ok (none, w')) ∧
    (∀ n w', Closures.runScanner s f i w = .ok (.incomplete n, w') ↔
      n = 1 ∧ ∃ s', Walks f s i.buf w s' w') ∧
    (∀ b e w', Closures.runScanner s f i w ≠ .ok (.error b e, w')) ∧
    (∀ a : Abrupt, Closures.runScanner s f i w = a.res ↔
      ∃ pre c rest s1 w1, i.buf = pre ++ c :: rest ∧ Walks f s pre w s1 w1 ∧ f s1 c w1 = a.res) := by
  have key := Closures.walks_cases f s i.buf w
  refine ⟨?_, ?_, ?_, ?_⟩
  · intro j t s2 w'
    constructor
    · intro h
      rcases key with ⟨s1, w1, h1⟩ | ⟨pre, c, rest, s1, w1, w2, hb, h1, hc⟩ |
        ⟨a, pre, c, rest, s1, w1, hb, h1, hc⟩
      · rw [Closures.run_data_none h1] at h; simp at h
      · rw [Closures.run_data_some hb h1 hc] at h
        simp only [Res.ok.injEq, Prod.mk.injEq, ParseResult.data.injEq] at h
        obtain ⟨⟨rfl, rfl, rfl⟩, rfl⟩ := h
        exact ⟨rfl, hb, c, rest, w1, rfl, h1, hc⟩
      · rw [Closures.run_data_abrupt hb h1 hc] at h
        exact absurd h (Closures.res_ne _ _)
    · rintro ⟨hm, hb, c, r, w1, hr, h1, hc⟩
      obtain ⟨m, r'⟩ := j
      dsimp only at hm hb hr
      subst hm hr
      exact Closures.run_data_some hb h1 hc
  · intro n w'
    constructor
    · intro h
      rcases key with ⟨s1, w1, h1⟩ | ⟨pre, c, rest, s1, w1, w2, hb, h1, hc⟩ |
        ⟨a, pre, c, rest, s1, w1, hb, h1, hc⟩
      · rw [Closures.run_data_none h1] at h
        simp only [Res.ok.injEq, Prod.mk.injEq, ParseResult.incomplete.injEq] at h
        obtain ⟨rfl, rfl⟩ := h
        exact ⟨rfl, s1, h1⟩
      · rw [Closures.run_data_some hb h1 hc] at h; simp at h
      · rw [Closures.run_data_abrupt hb h1 hc] at h
        exact absurd h (Closures.res_ne _ _)
    · rintro ⟨rfl, s1, h1⟩
      exact Closures.run_data_none h1
  · intro b e w' h
    rcases key with ⟨s1, w1, h1⟩ | ⟨pre, c, rest, s1, w1, w2, hb, h1, hc⟩ |
      ⟨a, pre, c, rest, s1, w1, hb, h1, hc⟩
    · rw [Closures.run_data_none h1] at h; simp at h
    · rw [Closures.run_data_some hb h1 hc] at h; simp at h
    · rw [Closures.run_data_abrupt hb h1 hc] at h
      exact absurd h (Closures.res_ne _ _)
  · intro a
    constructor
    · intro h
      rcases key with ⟨s1, w1, h1⟩ | ⟨pre, c, rest, s1, w1, w2, hb, h1, hc⟩ |
        ⟨a', pre, c, rest, s1, w1, hb, h1, hc⟩
      · rw [Closures.run_data_none h1] at h
        exact absurd h.symm (Closures.res_ne _ _)
      · rw [Closures.run_data_some hb h1 hc] at h
        exact absurd h.symm (Closures.res_ne _ _)
      · rw [Closures.run_data_abrupt hb h1 hc] at h
        exact ⟨pre, c, rest, s1, w1, hb, h1, Closures.res_inj h ▸ hc⟩
    · rintro ⟨pre, c, rest, s1, w1, hb, h1, hc⟩
      exact Closures.run_data_abrupt hb h1 hc

/-- `satisfy` asks once, about the first item; without items it does not ask. -/
theorem C72_satisfy (v : Bool) (f : I → M σ Bool) (m : Mode) (w : σ) :
    Closures.satisfy v f ⟨m, []⟩ w = .ok (.incomplete 1, w) ∧
    (∀ c r w', f c w = .ok (true, w') →
      Closures.satisfy v f ⟨m, c :: r⟩ w = .ok (.data ⟨m, r⟩ c, w')) ∧
    (∀ c r w', f c w = .ok (false, w') →
      Closures.satisfy v f ⟨m, c :: r⟩ w =
        .ok (.error (c :: r) (if v then .unexpected else .generic), w')) ∧
    (∀ (a : Abrupt) c r, f c w = a.res → Closures.satisfy v f ⟨m, c :: r⟩ w = a.res) := by
  refine ⟨rfl, ?_, ?_, ?_⟩
  · intro c r w' h; unfold Closures.satisfy; dsimp only; rw [M.bind_ok h]; rfl
  · intro c r w' h; unfold Closures.satisfy; dsimp only; rw [M.bind_ok h]; rfl
  · intro a c r h; unfold Closures.satisfy; dsimp only
    rw [M.bind_apply, h, Closures.res_bind]

/-- `satisfy_with` maps the first item once, and asks once about what it got. -/
theorem C72_satisfy_with (v : Bool) (f : I → M σ T) (p : T → M σ Bool) (m : Mode) (w : σ) :
    Closures.satisfyWith v f p ⟨m, []⟩ w = .ok (.incomplete 1, w) ∧
    (∀ c r t w1 w', f c w = .ok (t, w1) → p t w1 = .ok (true, w') →
      Closures.satisfyWith v f p ⟨m, c :: r⟩ w = .ok (.data ⟨m, r⟩ t, w')) ∧
    (∀ c r t w1 w', f c w = .ok (t, w1) → p t w1 = .ok (false, w') →
      Closures.satisfyWith v f p ⟨m, c :: r⟩ w =
        .ok (.error (c :: r) (if v then .unexpected else .generic), w')) ∧
    (∀ (a : Abrupt) c r, f c w = a.res → Closures.satisfyWith v f p ⟨m, c :: r⟩ w = a.res) ∧
    (∀ (a : Abrupt) c r t w1, f c w = .ok (t, w1) → p t w1 = a.res →
      Closures.satisfyWith v f p ⟨m, c :: r⟩ w = a.res) := by
  refine ⟨rfl, ?_, ?_, ?_, ?_⟩
  · intro c r t w1 w' h h'; unfold Closures.satisfyWith; dsimp only
    rw [M.bind_ok h, M.bind_ok h']; rfl
  · intro c r t w1 w' h h'; unfold Closures.satisfyWith; dsimp only
    rw [M.bind_ok h, M.bind_ok h']; rfl
  · intro a c r h; unfold Closures.satisfyWith; dsimp only
    rw [M.bind_apply, h, Closures.res_bind]
  · intro a c r t w1 h h'; unfold Closures.satisfyWith; dsimp only
    rw [M.bind_ok h, M.bind_apply, h', Closures.res_bind]

/-- `token` and `not_token` compare once, the given item on the left, and return the item of the input. -/
theorem C72_token (v : Bool) (eq ne : I → I → M σ Bool) (t : I) (m : Mode) (w : σ) :
    Closures.token eq v t ⟨m, []⟩ w = .ok (.incomplete 1, w) ∧
    Closures.notToken ne v t ⟨m, []⟩ w = .ok (.incomplete 1, w) ∧
    (∀ c r w', eq t c w = .ok (true, w') →
      Closures.token eq v t ⟨m, c :: r⟩ w = .ok (.data ⟨m, r⟩ c, w')) ∧
    (∀ c r w', eq t c w = .ok (false, w') →
      Closures.token eq v t ⟨m, c :: r⟩ w =
        .ok (.error (c :: r) (if v then .expected t else .generic), w')) ∧
    (∀ c r w', ne t c w = .ok (true, w') →
      Closures.notToken ne v t ⟨m, c :: r⟩ w = .ok (.data ⟨m, r⟩ c, w')) ∧
    (∀ c r w', ne t c w = .ok (false, w') →
      Closures.notToken ne v t ⟨m, c :: r⟩ w =
        .ok (.error (c :: r) (if v then .unexpected else .generic), w')) ∧
    (∀ (a : Abrupt) c r, eq t c w = a.res → Closures.token eq v t ⟨m, c :: r⟩ w = a.res) ∧
    (∀ (a : Abrupt) c r, ne t c w = a.res → Closures.notToken ne v t ⟨m, c :: r⟩ w = a.res) := by
  refine ⟨rfl, rfl, ?_, ?_, ?_, ?_, ?_, ?_⟩
  · intro c r w' h; unfold Closures.token; dsimp only; rw [M.bind_ok h]; rfl
  · intro c r w' h; unfold Closures.token; dsimp only; rw [M.bind_ok h]; rfl
  · intro c r w' h; unfold Closures.notToken; dsimp only; rw [M.bind_ok h]; rfl
  · intro c r w' h; unfold Closures.notToken; dsimp only; rw [M.bind_ok h]; rfl
  · intro a c r h; unfold Closures.token; dsimp only; rw [M.bind_apply, h, Closures.res_bind]
  · intro a c r h; unfold Closures.notToken; dsimp only; rw [M.bind_apply, h, Closures.res_bind]

/-- `string` compares nothing unless there are enough items. Otherwise it compares pair by pair, the item of
the string on the left, and stops at the first difference. What it returns are the items of the input. -/
theorem C72_string (v : Bool) (ne : I → I → M σ Bool) (s : List I) (m : Mode) (w : σ) :
    (∀ b, b.length < s.length →
      Closures.string ne v s ⟨m, b⟩ w = .ok (.incomplete (s.length - b.length), w)) ∧
    (∀ d r w', d.length = s.length → Says (fun x => ne x.1 x.2) false (s.zip d) w w' →
      Closures.string ne v s ⟨m, d ++ r⟩ w = .ok (.data ⟨m, r⟩ d, w')) ∧
    (∀ s1 a s2 d1 c d2 r w1 w', s = s1 ++ a :: s2 → d1.length = s1.length → d2.length = s2.length →
      Says (fun x => ne x.1 x.2) false (s1.zip d1) w w1 → ne a c w1 = .ok (true, w') →
      Closures.string ne v s ⟨m, d1 ++ c :: d2 ++ r⟩ w =
        .ok (if v then .error (d1 ++ c :: d2 ++ r) (.string s)
          else .error (c :: d2 ++ r) .generic, w')) ∧
    (∀ (x : Abrupt) s1 a s2 d1 c d2 r w1, s = s1 ++ a :: s2 → d1.length = s1.length →
      d2.length = s2.length → Says (fun x => ne x.1 x.2) false (s1.zip d1) w w1 → ne a c w1 = x.res →
      Closures.string ne v s ⟨m, d1 ++ c :: d2 ++ r⟩ w = x.res) := by
  refine ⟨?_, ?_, ?_, ?_⟩
  · intro b h
    unfold Closures.string
    dsimp only
    rw [if_pos h]
    rw [usub_ok (by omega)]
    rfl
  · intro d r w' hl h
    unfold Closures.string
    dsimp only
    rw [if_neg (by simp; omega), M.bind_ok (sliceTo_ok (by simp; omega) _), ← hl, List.take_left,
      M.bind_ok (Closures.mismatch_none hl h)]
    dsimp only
    rw [M.bind_ok (sliceFrom_ok (by simp) _), List.drop_left]
    rfl
  · intro s1 a s2 d1 c d2 r w1 w' hs h1 h2 h hc
    unfold Closures.string
    dsimp only
    have hl : s.length = (d1 ++ c :: d2).length := by simp [hs, h1, h2]
    rw [if_neg (by simp [hl]), M.bind_ok (sliceTo_ok (by simp [hl]) _), hl, List.take_left, hs,
      M.bind_ok (Closures.mismatch_some h1 h hc)]
    dsimp only
    cases v with
    | true => rfl
    | false =>
      unfold Err.string
      simp only [Bool.false_eq_true, if_false]
      rw [M.bind_ok (sliceFrom_ok (by simp; omega) _), List.append_assoc, ← h1, List.drop_left]
      rfl
  · intro x s1 a s2 d1 c d2 r w1 hs h1 h2 h hc
    unfold Closures.string
    dsimp only
    have hl : s.length = (d1 ++ c :: d2).length := by simp [hs, h1, h2]
    rw [if_neg (by simp [hl]), M.bind_ok (sliceTo_ok (by simp [hl]) _), hl, List.take_left, hs,
      M.bind_apply, Closures.mismatch_abrupt h1 h hc, Closures.res_bind]

/-! ### Closures which remember what they were asked -/

theorem says_logged (f : I → Bool) (ans : Bool) (t l : List I) (h : t.all (fun c => f c == ans)) :
    Says (logged f) ans t l (l ++ t) := by
  induction t generalizing l with
  | nil => simpa using Says.nil
  | cons c t ih =>
    simp only [List.all_cons, Bool.and_eq_true, beq_iff_eq] at h
    have h1 : logged f c l = .ok (ans, l ++ [c]) := by rw [logged, h.1]
    simpa using Says.cons h1 (ih (l ++ [c]) h.2)

/-- `map` calls its closure once, with the value, after the parser, and not at all if there is none. -/
theorem C72_map (p : Parser σ I T E) (f : T → M σ U) (i : Input I) (w w1 : σ) :
    (∀ j t u w2, p i w = .ok (.data j t, w1) → f t w1 = .ok (u, w2) →
      Closures.map p f i w = .ok (.data j u, w2)) ∧
    (∀ (a : Abrupt) j t, p i w = .ok (.data j t, w1) → f t w1 = a.res → Closures.map p f i w = a.res) ∧
    (∀ b e, p i w = .ok (.error b e, w1) → Closures.map p f i w = .ok (.error b e, w1)) ∧
    (∀ n, p i w = .ok (.incomplete n, w1) → Closures.map p f i w = .ok (.incomplete n, w1)) ∧
    (∀ a : Abrupt, p i w = a.res → Closures.map p f i w = a.res) := by
  unfold Closures.map
  refine ⟨fun j t u w2 h1 h2 => ?_, fun a j t h1 h2 => ?_, fun b e h1 => ?_, fun n h1 => ?_,
    fun a h1 => ?_⟩ <;> rw [M.bind_apply, h1]
  · show (f t w1 >>= _) = _
    rw [h2]; rfl
  · show (f t w1 >>= _) = _
    rw [h2]; cases a <;> rfl
  · rfl
  · rfl
  · cases a <;> rfl

/-- `map_err` calls its closure once, with the error, after the parser, and not at all if there is
none. -/
theorem C72_map_err (p : Parser σ I T E) (f : E → M σ V) (i : Input I) (w w1 : σ) :
    (∀ b e e' w2, p i w = .ok (.error b e, w1) → f e w1 = .ok (e', w2) →
      Closures.mapErr p f i w = .ok (.error b e', w2)) ∧
    (∀ (a : Abrupt) b e, p i w = .ok (.error b e, w1) → f e w1 = a.res →
      Closures.mapErr p f i w = a.res) ∧
    (∀ j t, p i w = .ok (.data j t, w1) → Closures.mapErr p f i w = .ok (.data j t, w1)) ∧
    (∀ n, p i w = .ok (.incomplete n, w1) → Closures.mapErr p f i w = .ok (.incomplete n, w1)) ∧
    (∀ a : Abrupt, p i w = a.res → Closures.mapErr p f i w = a.res) := by
  unfold Closures.mapErr
  refine ⟨fun b e e' w2 h1 h2 => ?_, fun a b e h1 h2 => ?_, fun j t h1 => ?_, fun n h1 => ?_,
    fun a h1 => ?_⟩ <;> rw [M.bind_apply, h1]
  · show (f e w1 >>= _) = _
    rw [h2]; rfl
  · show (f e w1 >>= _) = _
    rw [h2]; cases a <;> rfl
  · rfl
  · rfl
  · cases a <;> rfl

/-- `take_while` asks about the items it takes and about the next one, and about no other. -/
theorem C72_asked (f : I → Bool) (i : Input I) (log : List I) :
    ∃ r, Closures.takeWhile (logged f) i log =
      .ok (r, log ++ i.buf.takeWhile f ++ (i.buf.dropWhile f).take 1) := by
  have hb : i.buf.takeWhile f ++ i.buf.dropWhile f = i.buf := List.takeWhile_append_dropWhile
  have ht : (i.buf.takeWhile f).all (fun c => f c == true) := by
    simp only [List.all_eq_true, beq_iff_eq]
    intro c hc
    have := List.all_takeWhile (p := f) (l := i.buf)
    rw [List.all_eq_true] at this
    exact this c hc
  have h1 := says_logged f true (i.buf.takeWhile f) log ht
  cases hd : i.buf.dropWhile f with
  | nil =>
    rw [hd, List.append_nil] at hb
    rw [hb] at h1 ⊢
    exact ⟨_, (Closures.takeWhile_none h1).trans (by rw [List.take_nil, List.append_nil])⟩
  | cons c r =>
    rw [hd] at hb
    have hc : f c = false := by
      have := List.head?_dropWhile_not f i.buf
      rw [hd] at this
      simpa using this
    have h2 : logged f c (log ++ i.buf.takeWhile f) = .ok (false, log ++ i.buf.takeWhile f ++ [c]) := by
      rw [logged, hc]
    exact ⟨_, Closures.takeWhile_some hb.symm h1 h2⟩

/-! ### Pure closures -/

/-- With closures and comparisons without effects all this is the same as in Verif/Model/Parsers.lean. -/
theorem C72_pure [DecidableEq I] (v : Bool) (f : I → Bool) (g : I → T) (p : T → Bool)
    (h : S → I → Option S) (s : S) (t : I) (u : List I) :
    (Closures.satisfy v (fun c => pure (f c)) : Parser σ I I (Error I)) = Parsers.satisfy v f ∧
    (Closures.satisfyWith v (fun c => pure (g c)) (fun t => pure (p t)) : Parser σ I T (Error I)) =
      Parsers.satisfyWith v g p ∧
    (Closures.takeWhile (fun c => pure (f c)) : Parser σ I (List I) (Error I)) =
      Parsers.takeWhile f ∧
    (Closures.takeWhile1 v (fun c => pure (f c)) : Parser σ I (List I) (Error I)) =
      Parsers.takeWhile1 v f ∧
    (Closures.takeTill (fun c => pure (f c)) : Parser σ I (List I) (Error I)) =
      Parsers.takeTill f ∧
    (Closures.scan s (fun s c => pure (h s c)) : Parser σ I (List I) (Error I)) =
      Parsers.scan s h ∧
    (Closures.runScanner s (fun s c => pure (h s c)) : Parser σ I (List I × S) (Error I)) =
      Parsers.runScanner s h ∧
    (Closures.token (fun a c => pure (a == c)) v t : Parser σ I I (Error I)) = Parsers.token v t ∧
    (Closures.notToken (fun a c => pure (a != c)) v t : Parser σ I I (Error I)) =
      Parsers.notToken v t ∧
    (Closures.string (fun a c => pure (a != c)) v u : Parser σ I (List I) (Error I)) =
      Parsers.string v u :=
  ⟨Closures.satisfy_pure v f, Closures.satisfyWith_pure v g p, Closures.takeWhile_pure f, Closures.takeWhile1_pure v f,
    Closures.takeTill_pure f, Closures.scanner_pure h s, Closures.runScanner_pure h s, Closures.token_pure v t,
    Closures.notToken_pure v t, Closures.string_pure v u⟩

/-! ### Examples -/

namespace ClosuresExample

/-- says yes to the first `n` questions and counts them; panics when asked about `'!'` -/
def budget (n : Nat) : Char → M Nat Bool := fun c k =>
  if c = '!' then .panic else .ok (decide (k < n), k + 1)

example : Says (budget 2) true ['a', 'b'] 0 2 := .cons rfl (.cons rfl .nil)

-- takes two items and asks three questions
example : Closures.takeWhile (budget 2) ⟨.default, ['a', 'b', 'c', '!']⟩ 0 =
    .ok (.data ⟨.default, ['c', '!']⟩ ['a', 'b'], 3) :=
  ((C72_take_while (budget 2) ⟨.default, ['a', 'b', 'c', '!']⟩ 0).1 ⟨.default, ['c', '!']⟩ _ _).2
    ⟨rfl, rfl, 2, .cons rfl (.cons rfl .nil), rfl⟩

-- panics with the closure, but only if it is asked
example : Closures.takeWhile1 true (budget 2) ⟨.default, ['a', '!', 'c']⟩ 0 = .panic :=
  ((C72_take_while1 true (budget 2) ⟨.default, ['a', '!', 'c']⟩ 0).2.2.2 .panic).2
    ⟨['a'], '!', ['c'], 1, rfl, .cons rfl .nil, rfl⟩

example : Closures.takeWhile1 true (budget 0) ⟨.default, ['a', '!', 'c']⟩ 0 =
    .ok (.error ['a', '!', 'c'] .unexpected, 1) :=
  ((C72_take_while1 true (budget 0) ⟨.default, ['a', '!', 'c']⟩ 0).2.2.1 _ _ _).2
    ⟨rfl, rfl, 'a', ['!', 'c'], rfl, rfl⟩

example : Closures.takeTill (budget 0) ⟨.default, ['a', 'b', 'c']⟩ 0 = .ok (.incomplete 1, 3) :=
  ((C72_take_till (budget 0) ⟨.default, ['a', 'b', 'c']⟩ 0).2.1 _ _).2
    ⟨rfl, .cons rfl (.cons rfl (.cons rfl .nil))⟩

/-- depth of parentheses; also counts its calls -/
def depth : Nat → Char → M Nat (Option Nat) := fun d c k =>
  if c = '(' then .ok (some (d + 1), k + 1)
  else if c = ')' then .ok (if d = 0 then none else some (d - 1), k + 1)
  else .ok (some d, k + 1)

example : Closures.runScanner 0 depth ⟨.default, ['(', 'x', ')', ')', ')']⟩ 0 =
    .ok (.data ⟨.default, [')', ')']⟩ (['(', 'x', ')'], 0), 4) :=
  ((C72_run_scanner 0 depth ⟨.default, ['(', 'x', ')', ')', ')']⟩ 0).1 ⟨.default, [')', ')']⟩ _ _ _).2
    ⟨rfl, rfl, ')', [')'], 3, rfl, .cons rfl (.cons rfl (.cons rfl .nil)), rfl⟩

example : Closures.scan 1 depth ⟨.default, ['(', 'x', ')', ')', ')']⟩ 0 = .ok (.data ⟨.default, [')']⟩
    ['(', 'x', ')', ')'], 5) :=
  ((C72_scan 1 depth ⟨.default, ['(', 'x', ')', ')', ')']⟩ 0).1 ⟨.default, [')']⟩ _ _).2
    ⟨rfl, rfl, ')', [], 0, 4, rfl, .cons rfl (.cons rfl (.cons rfl (.cons rfl .nil))), rfl⟩

/-- comparison without regard to case -/
def caseNe : Char → Char → M Unit Bool := fun a c => pure (a.toLower != c.toLower)

-- what is returned is the input
example : Closures.string caseNe true ['g', 'e', 't'] ⟨.default, ['G', 'e', 'T', ' ']⟩ () =
    .ok (.data ⟨.default, [' ']⟩ ['G', 'e', 'T'], ()) :=
  (C72_string true caseNe ['g', 'e', 't'] .default ()).2.1 ['G', 'e', 'T'] [' '] () rfl
    (.cons rfl (.cons rfl (.cons rfl .nil)))

-- an item which differs from itself, like a NaN, is matched by not_token
example : Closures.notToken (fun _ _ => pure true) true 'x' ⟨.default, ['x']⟩ () =
    .ok (.data ⟨.default, []⟩ 'x', ()) :=
  (C72_token true (fun _ _ => pure false) (fun _ _ => pure true) 'x' .default ()).2.2.2.2.1 _ _ _ rfl

/-! The theorems about all parsers hold with such closures. -/

/-- a record of up to three items, then a bracketed text, then the end of the line; counts all questions -/
def counted : Parser Nat Char (List Char) (Error Char) :=
  Parser.bind id (Closures.takeWhile1 true (budget 3)) fun a =>
  Parser.andThen id (Comb.many (Collect.vec Char) (Closures.satisfy true fun c k => .ok (c == 'x', k + 1))) <|
  Parser.bind id (Closures.scan 0 depth) fun b =>
  Closures.map (Closures.string (fun a c k => .ok (a != c, k + 1)) true ['\r', '\n'])
    fun _ k => .ok (a ++ b, k + 1)

theorem counted_built (h : a.mayPanic = true) (hk : a.Permits 2) : Built a counted :=
  .bind (.takeWhile1M _ _ (fun e => by rw [h] at e; cases e)) fun _ =>
  .andThen (.many _ (.satisfyM _ _ fun _ _ _ => nofun)) <|
  .bind (.scanM _ _ fun e => by rw [h] at e; cases e) fun _ =>
  .mapM _ (fun _ _ _ => nofun) (.stringM _ _ _ hk fun _ _ _ _ => nofun)

example : Stable counted := C07_stable (counted_built rfl nofun)

example (i : Input Char) (n w w') (h : counted i w = .ok (.incomplete n, w')) : n ≤ 2 := by
  have := C66_request (a := ⟨true, true, some 2⟩) rfl (counted_built rfl fun K hK => by cases hK; simp) i w w' n h
  omega

theorem counted_productive : Productive true counted := by
  refine Productive.bind (a := true) (b := true) (.takeWhile1M _ _ ?_) fun _ => ?_
  · intro c w
    unfold budget; split <;> exact ⟨nofun, nofun⟩
  refine Productive.andThen (a := false) (b := true) (.many _ (.satisfyM _ _ ?_)) ?_
  · exact fun c w => ⟨nofun, nofun⟩
  refine Productive.bind (a := false) (b := true) (.scanM _ _ ?_) fun _ => ?_
  · intro s c w
    unfold depth; (repeat' split) <;> exact ⟨nofun, nofun⟩
  refine .mapM _ (fun _ w => ?_) (.stringM _ _ ['\r', '\n'] ?_)
  · exact ⟨nofun, nofun⟩
  · exact fun _ _ w => ⟨nofun, nofun⟩

example (i : Input Char) (w : Nat) : counted i w ≠ .div := C69_returns counted_productive i w

-- both builds ask the same number of questions
example : Alike true (Comb.skipMany (Closures.satisfy true (budget 7))) (Comb.skipMany (Closures.satisfy false (budget 7))) :=
  C75_alike (.skipMany (.satisfyM _ _ _))

-- C72: `map` and `map_err` count the values and the errors
example (c : Nat) (r : List Nat) :
    Closures.map (Parsers.any : Parser Nat Nat Nat (Error Nat)) (fun t k => .ok (t * 2, k + 1))
      ⟨.default, c :: r⟩ 5 = .ok (.data ⟨.default, r⟩ (c * 2), 6) :=
  (C72_map Parsers.any (fun t k => .ok (t * 2, k + 1)) ⟨.default, c :: r⟩ 5 5).1 _ _ _ _ rfl rfl

example (b : List Nat) : Closures.mapErr (Parser.err 3 : Parser Nat Nat Nat Nat) (fun e k => .ok (e + k, k + 1))
    ⟨.default, b⟩ 5 = .ok (.error b 8, 6) :=
  (C72_map_err (Parser.err 3) (fun e k => .ok (e + k, k + 1)) ⟨.default, b⟩ 5 5).1 _ _ _ _ rfl rfl

end ClosuresExample

end Chomp.Props
