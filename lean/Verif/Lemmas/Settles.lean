import Verif.Lemmas.Closures

/-
What the parsers with closures have in common, whatever the closures do: either the outcome is the same
however the input goes on, or all of the slice has been looked at.
-/

namespace Chomp.Closures

open Spec

/-- Values are reported after at least `c` items, at most `K` items are asked for, and `Q` is true of
whatever else happens. -/
def Settles (c : Bool) (K : Nat) (Q : Abrupt → Prop) (p : Parser σ I T E) : Prop := ∀ b w,
  (∃ r t w', r <:+ b ∧ r.length + c.toNat ≤ b.length ∧
    ∀ m rest, p ⟨m, b ++ rest⟩ w = .ok (.data ⟨m, r ++ rest⟩ t, w')) ∨
  (∃ r e w', r <:+ b ∧ ∀ m rest, p ⟨m, b ++ rest⟩ w = .ok (.error (r ++ rest) e, w')) ∨
  (∃ a : Abrupt, Q a ∧ ∀ m rest, p ⟨m, b ++ rest⟩ w = a.res) ∨
  (∃ n w', 1 ≤ n ∧ n ≤ K ∧ p ⟨.default, b⟩ w = .ok (.incomplete n, w') ∧
    (p ⟨.endOfInput, b⟩ w = .ok (.incomplete n, w') ∨
      ∃ t, c.toNat ≤ b.length ∧ p ⟨.endOfInput, b⟩ w = .ok (.data ⟨.endOfInput, []⟩ t, w')) ∧
    ∀ rest, rest.length < n →
      ∃ n', p ⟨.default, b ++ rest⟩ w = .ok (.incomplete n', w') ∧ n ≤ n' + rest.length)

/-- Asking for one item leaves nothing to show. -/
theorem one {p : Parser σ I T E} {b : List I} {w w' : σ} (h : p ⟨.default, b⟩ w = .ok (.incomplete 1, w')) :
    ∀ rest : List I, rest.length < 1 →
      ∃ n', p ⟨.default, b ++ rest⟩ w = .ok (.incomplete n', w') ∧ 1 ≤ n' + rest.length := by
  intro rest hr
  obtain rfl : rest = [] := List.length_eq_zero_iff.mp (by omega)
  exact ⟨1, by rw [List.append_nil, h], by simp⟩

/-- Parsers which look at the first item only. -/
theorem settles_head {p : Parser σ I T E} {Q : Abrupt → Prop}
    (h0 : ∀ m w, p ⟨m, []⟩ w = .ok (.incomplete 1, w))
    (h1 : ∀ c w, (∃ t w', ∀ m r, p ⟨m, c :: r⟩ w = .ok (.data ⟨m, r⟩ t, w')) ∨
      (∃ e w', ∀ m r, p ⟨m, c :: r⟩ w = .ok (.error (c :: r) e, w')) ∨
      (∃ a : Abrupt, Q a ∧ ∀ m r, p ⟨m, c :: r⟩ w = a.res)) : Settles true 1 Q p := by
  intro b w
  cases b with
  | nil =>
    exact .inr (.inr (.inr ⟨1, w, Nat.le_refl _, Nat.le_refl _, h0 _ _, .inl (h0 _ _), one (h0 _ _)⟩))
  | cons c r =>
    rcases h1 c w with ⟨t, w', h⟩ | ⟨e, w', h⟩ | ⟨a, ha, h⟩
    · exact .inl ⟨r, t, w', List.suffix_cons c r, by simp, fun m rest => h m _⟩
    · exact .inr (.inl ⟨c :: r, e, w', List.suffix_refl _, fun m rest => h m _⟩)
    · exact .inr (.inr (.inl ⟨a, ha, fun m rest => h m _⟩))

theorem settles_satisfy (v) (f : I → M σ Bool) :
    Settles true 1 (fun a => ∃ c w, f c w = a.res) (satisfy v f) := by
  refine settles_head (fun _ _ => rfl) fun c w => ?_
  rcases res_cases (f c w) with ⟨⟨x, w'⟩, hx⟩ | ⟨a, ha⟩
  · cases x with
    | true => exact .inl ⟨c, w', fun m r => by unfold satisfy; dsimp only; rw [M.bind_ok hx]; rfl⟩
    | false => exact .inr (.inl ⟨_, w', fun m r => by unfold satisfy; dsimp only; rw [M.bind_ok hx]; rfl⟩)
  · exact .inr (.inr ⟨a, ⟨c, w, ha⟩, fun m r => by
      unfold satisfy; dsimp only; rw [M.bind_apply, ha, res_bind]⟩)

theorem settles_token (eq : I → I → M σ Bool) (v) (t : I) :
    Settles true 1 (fun a => ∃ c w, eq t c w = a.res) (token eq v t) := by
  refine settles_head (fun _ _ => rfl) fun c w => ?_
  rcases res_cases (eq t c w) with ⟨⟨x, w'⟩, hx⟩ | ⟨a, ha⟩
  · cases x with
    | true => exact .inl ⟨c, w', fun m r => by unfold token; dsimp only; rw [M.bind_ok hx]; rfl⟩
    | false => exact .inr (.inl ⟨_, w', fun m r => by unfold token; dsimp only; rw [M.bind_ok hx]; rfl⟩)
  · exact .inr (.inr ⟨a, ⟨c, w, ha⟩, fun m r => by
      unfold token; dsimp only; rw [M.bind_apply, ha, res_bind]⟩)

theorem settles_notToken (ne : I → I → M σ Bool) (v) (t : I) :
    Settles true 1 (fun a => ∃ c w, ne t c w = a.res) (notToken ne v t) := by
  refine settles_head (fun _ _ => rfl) fun c w => ?_
  rcases res_cases (ne t c w) with ⟨⟨x, w'⟩, hx⟩ | ⟨a, ha⟩
  · cases x with
    | true => exact .inl ⟨c, w', fun m r => by unfold notToken; dsimp only; rw [M.bind_ok hx]; rfl⟩
    | false => exact .inr (.inl ⟨_, w', fun m r => by unfold notToken; dsimp only; rw [M.bind_ok hx]; rfl⟩)
  · exact .inr (.inr ⟨a, ⟨c, w, ha⟩, fun m r => by
      unfold notToken; dsimp only; rw [M.bind_apply, ha, res_bind]⟩)

theorem settles_satisfyWith (v) (f : I → M σ T) (p : T → M σ Bool) :
    Settles true 1 (fun a => (∃ c w, f c w = a.res) ∨ ∃ t w, p t w = a.res) (satisfyWith v f p) := by
  refine settles_head (fun _ _ => rfl) fun c w => ?_
  rcases res_cases (f c w) with ⟨⟨t, w1⟩, h1⟩ | ⟨a, ha⟩
  · rcases res_cases (p t w1) with ⟨⟨x, w'⟩, hx⟩ | ⟨a, ha⟩
    · cases x with
      | true =>
        exact .inl ⟨t, w', fun m r => by
          unfold satisfyWith; dsimp only; rw [M.bind_ok h1, M.bind_ok hx]; rfl⟩
      | false =>
        exact .inr (.inl ⟨_, w', fun m r => by
          unfold satisfyWith; dsimp only; rw [M.bind_ok h1, M.bind_ok hx]; rfl⟩)
    · exact .inr (.inr ⟨a, .inr ⟨t, w1, ha⟩, fun m r => by
        unfold satisfyWith; dsimp only; rw [M.bind_ok h1, M.bind_apply, ha, res_bind]⟩)
  · exact .inr (.inr ⟨a, .inl ⟨c, w, ha⟩, fun m r => by
      unfold satisfyWith; dsimp only; rw [M.bind_apply, ha, res_bind]⟩)

theorem split_append (pre : List I) (c : I) (r rest : List I) :
    (pre ++ c :: r) ++ rest = pre ++ c :: (r ++ rest) := by simp

theorem settles_takeWhile (f : I → M σ Bool) :
    Settles false 1 (fun a => ∃ c w, f c w = a.res) (takeWhile f) := by
  intro b w
  rcases says_cases f true b w with ⟨w', h⟩ | ⟨pre, c, r, w1, w', rfl, h, hc⟩ | ⟨a, pre, c, r, w1, rfl, h, hc⟩
  · have h1 : takeWhile f ⟨.default, b⟩ w = .ok (.incomplete 1, w') := takeWhile_none (i := ⟨_, b⟩) h
    exact .inr (.inr (.inr ⟨1, w', Nat.le_refl _, Nat.le_refl _, h1,
      .inr ⟨b, Nat.zero_le _, takeWhile_none (i := ⟨.endOfInput, b⟩) h⟩, one h1⟩))
  · exact .inl ⟨c :: r, pre, w', List.suffix_append .., by simp, fun m rest =>
      takeWhile_some (i := ⟨m, _⟩) (split_append ..) h hc⟩
  · exact .inr (.inr (.inl ⟨a, ⟨c, w1, hc⟩, fun m rest =>
      takeWhile_abrupt (i := ⟨m, _⟩) (split_append ..) h hc⟩))

theorem settles_takeWhile1 (v) (f : I → M σ Bool) :
    Settles true 1 (fun a => ∃ c w, f c w = a.res) (takeWhile1 v f) := by
  intro b w
  rcases says_cases f true b w with ⟨w', h⟩ | ⟨pre, c, r, w1, w', rfl, h, hc⟩ | ⟨a, pre, c, r, w1, rfl, h, hc⟩
  · have h1 : takeWhile1 v f ⟨.default, b⟩ w = .ok (.incomplete 1, w') := by
      rw [takeWhile1_none (i := ⟨_, b⟩) h]; rfl
    refine .inr (.inr (.inr ⟨1, w', Nat.le_refl _, Nat.le_refl _, h1, ?_, one h1⟩))
    rw [takeWhile1_none (i := ⟨.endOfInput, b⟩) h]
    cases b with
    | nil => exact .inl rfl
    | cons c r => exact .inr ⟨c :: r, by simp, rfl⟩
  · cases pre with
    | nil =>
      exact .inr (.inl ⟨_, _, w', List.suffix_refl _, fun m rest => by
        rw [takeWhile1_some (i := ⟨m, _⟩) (split_append ..) h hc]; rfl⟩)
    | cons d pre =>
      exact .inl ⟨c :: r, d :: pre, w', List.suffix_append .., by simp, fun m rest => by
        rw [takeWhile1_some (i := ⟨m, _⟩) (split_append ..) h hc]; rfl⟩
  · exact .inr (.inr (.inl ⟨a, ⟨c, w1, hc⟩, fun m rest =>
      takeWhile1_abrupt (i := ⟨m, _⟩) (split_append ..) h hc⟩))

theorem settles_takeTill (f : I → M σ Bool) :
    Settles false 1 (fun a => ∃ c w, f c w = a.res) (takeTill f) := by
  intro b w
  rcases says_cases f false b w with ⟨w', h⟩ | ⟨pre, c, r, w1, w', rfl, h, hc⟩ | ⟨a, pre, c, r, w1, rfl, h, hc⟩
  · exact .inr (.inr (.inr ⟨1, w', Nat.le_refl _, Nat.le_refl _, takeTill_none (i := ⟨_, b⟩) h,
      .inl (takeTill_none (i := ⟨_, b⟩) h), one (takeTill_none (i := ⟨_, b⟩) h)⟩))
  · exact .inl ⟨c :: r, pre, w', List.suffix_append .., by simp, fun m rest =>
      takeTill_some (i := ⟨m, _⟩) (split_append ..) h hc⟩
  · exact .inr (.inr (.inl ⟨a, ⟨c, w1, hc⟩, fun m rest =>
      takeTill_abrupt (i := ⟨m, _⟩) (split_append ..) h hc⟩))

theorem settles_scan (s : S) (f : S → I → M σ (Option S)) :
    Settles false 1 (fun a => ∃ s c w, f s c w = a.res) (scan s f) := by
  intro b w
  rcases walks_cases f s b w with ⟨s', w', h⟩ | ⟨pre, c, r, s1, w1, w', rfl, h, hc⟩ |
    ⟨a, pre, c, r, s1, w1, rfl, h, hc⟩
  · exact .inr (.inr (.inr ⟨1, w', Nat.le_refl _, Nat.le_refl _, scan_data_none (i := ⟨_, b⟩) h,
      .inl (scan_data_none (i := ⟨_, b⟩) h), one (scan_data_none (i := ⟨_, b⟩) h)⟩))
  · exact .inl ⟨c :: r, pre, w', List.suffix_append .., by simp, fun m rest =>
      scan_data_some (i := ⟨m, _⟩) (split_append ..) h hc⟩
  · exact .inr (.inr (.inl ⟨a, ⟨s1, c, w1, hc⟩, fun m rest =>
      scan_data_abrupt (i := ⟨m, _⟩) (split_append ..) h hc⟩))

theorem settles_runScanner (s : S) (f : S → I → M σ (Option S)) :
    Settles false 1 (fun a => ∃ s c w, f s c w = a.res) (runScanner s f) := by
  intro b w
  rcases walks_cases f s b w with ⟨s', w', h⟩ | ⟨pre, c, r, s1, w1, w', rfl, h, hc⟩ |
    ⟨a, pre, c, r, s1, w1, rfl, h, hc⟩
  · exact .inr (.inr (.inr ⟨1, w', Nat.le_refl _, Nat.le_refl _, run_data_none (i := ⟨_, b⟩) h,
      .inl (run_data_none (i := ⟨_, b⟩) h), one (run_data_none (i := ⟨_, b⟩) h)⟩))
  · exact .inl ⟨c :: r, (pre, s1), w', List.suffix_append .., by simp, fun m rest =>
      run_data_some (i := ⟨m, _⟩) (split_append ..) h hc⟩
  · exact .inr (.inr (.inl ⟨a, ⟨s1, c, w1, hc⟩, fun m rest =>
      run_data_abrupt (i := ⟨m, _⟩) (split_append ..) h hc⟩))

/-- Comparing with at least as many items: no difference, one at some position, or the comparison does
something else. -/
theorem mismatch_cases (ne : I → I → M σ Bool) (s d : List I) (hl : s.length ≤ d.length) (w : σ) :
    (∃ w', mismatch ne s (d.take s.length) w = .ok (none, w')) ∨
    (∃ j w', j < s.length ∧ mismatch ne s (d.take s.length) w = .ok (some j, w')) ∨
    (∃ a : Abrupt, (∃ t c w, ne t c w = a.res) ∧ mismatch ne s (d.take s.length) w = a.res) := by
  induction s generalizing d w with
  | nil => exact .inl ⟨w, rfl⟩
  | cons t s ih =>
    cases d with
    | nil => simp at hl
    | cons c d =>
      simp only [List.length_cons, List.take_succ_cons]
      rcases res_cases (ne t c w) with ⟨⟨x, w1⟩, hx⟩ | ⟨a, ha⟩
      · cases x with
        | true => exact .inr (.inl ⟨0, w1, by omega, by rw [mismatch, M.bind_ok hx]; rfl⟩)
        | false =>
          have hm : mismatch ne (t :: s) (c :: d.take s.length) w =
              (do let r ← mismatch ne s (d.take s.length); pure (r.map (· + 1)) : M σ _) w1 := by
            rw [mismatch, M.bind_ok hx]; rfl
          rw [hm]
          rcases ih d (by simpa using hl) w1 with ⟨w', h⟩ | ⟨j, w', hj, h⟩ | ⟨a, hq, h⟩
          · exact .inl ⟨w', by rw [M.bind_ok h]; rfl⟩
          · exact .inr (.inl ⟨j + 1, w', by omega, by rw [M.bind_ok h]; rfl⟩)
          · exact .inr (.inr ⟨a, hq, by rw [M.bind_apply, h, res_bind]⟩)
      · exact .inr (.inr ⟨a, ⟨t, c, w, ha⟩, by rw [mismatch, M.bind_apply, ha, res_bind]⟩)

theorem settles_string (ne : I → I → M σ Bool) (v) (s : List I) :
    Settles (!s.isEmpty) s.length (fun a => ∃ t c w, ne t c w = a.res) (string ne v s) := by
  intro b w
  have short : ∀ m (b : List I), b.length < s.length →
      string ne v s ⟨m, b⟩ w = .ok (.incomplete (s.length - b.length), w) := by
    intro m b h
    unfold string
    dsimp only
    rw [if_pos h, usub_ok (by omega)]
    rfl
  by_cases hl : b.length < s.length
  · refine .inr (.inr (.inr ⟨s.length - b.length, w, by omega, by omega, short _ _ hl,
      .inl (short _ _ hl), fun rest hr => ⟨_, short _ _ (by simp; omega), by simp; omega⟩⟩))
  · have hl' : s.length ≤ b.length := by omega
    have ht : ∀ rest, (b ++ rest).take s.length = b.take s.length := fun rest =>
      List.take_append_of_le_length hl'
    rcases mismatch_cases ne s b hl' w with ⟨w', h⟩ | ⟨j, w', hj, h⟩ | ⟨a, hq, h⟩
    · refine .inl ⟨b.drop s.length, b.take s.length, w', List.drop_suffix .., ?_, fun m rest => ?_⟩
      · rw [List.length_drop]
        cases s with
        | nil => simp
        | cons => simp at hl' ⊢; omega
      · unfold string
        dsimp only
        rw [if_neg (by simp; omega), M.bind_ok (sliceTo_ok (by simp; omega) _), ht, M.bind_ok h]
        dsimp only
        rw [M.bind_ok (sliceFrom_ok (by simp; omega) _), List.drop_append_of_le_length hl']
        rfl
    · refine .inr (.inl ⟨if v then b else b.drop j, if v then .string s else .generic, w', ?_,
        fun m rest => ?_⟩)
      · cases v
        · exact List.drop_suffix ..
        · exact List.suffix_refl _
      · unfold string
        dsimp only
        rw [if_neg (by simp; omega), M.bind_ok (sliceTo_ok (by simp; omega) _), ht, M.bind_ok h]
        dsimp only
        unfold Err.string
        cases v with
        | true => rfl
        | false =>
          simp only [Bool.false_eq_true, if_false]
          rw [M.bind_ok (sliceFrom_ok (by simp; omega) _), List.drop_append_of_le_length (by omega)]
          rfl
    · refine .inr (.inr (.inl ⟨a, hq, fun m rest => ?_⟩))
      unfold string
      dsimp only
      rw [if_neg (by simp; omega), M.bind_ok (sliceTo_ok (by simp; omega) _), ht, M.bind_apply, h, res_bind]

/-- What `string` does, with and without `verbose_error`. -/
theorem string_both (ne : I → I → M σ Bool) (s : List I) (i : Input I) (w : σ) :
    (∃ r w', ∀ v, string ne v s i w = .ok (r, w')) ∨
    (∃ b w', ∀ v, string ne v s i w = .ok (if v then .error i.buf (.string s) else .error b .generic, w')) ∨
    (∃ a : Abrupt, ∀ v, string ne v s i w = a.res) := by
  by_cases hl : i.buf.length < s.length
  · refine .inl ⟨.incomplete (s.length - i.buf.length), w, fun v => ?_⟩
    unfold string
    rw [if_pos hl, usub_ok (by omega)]
    rfl
  · have hl' : s.length ≤ i.buf.length := by omega
    rcases mismatch_cases ne s i.buf hl' w with ⟨w', h⟩ | ⟨j, w', hj, h⟩ | ⟨a, hq, h⟩
    · refine .inl ⟨.data (i.replace (i.buf.drop s.length)) (i.buf.take s.length), w', fun v => ?_⟩
      unfold string
      rw [if_neg hl, M.bind_ok (sliceTo_ok hl' _), M.bind_ok h]
      dsimp only
      rw [M.bind_ok (sliceFrom_ok hl' _)]
      rfl
    · refine .inr (.inl ⟨i.buf.drop j, w', fun v => ?_⟩)
      unfold string
      rw [if_neg hl, M.bind_ok (sliceTo_ok hl' _), M.bind_ok h]
      dsimp only
      unfold Err.string
      cases v with
      | true => rfl
      | false =>
        simp only [Bool.false_eq_true, if_false]
        rw [M.bind_ok (sliceFrom_ok (by omega) _)]
        rfl
    · refine .inr (.inr ⟨a, fun v => ?_⟩)
      unfold string
      rw [if_neg hl, M.bind_ok (sliceTo_ok hl' _), M.bind_apply, h, res_bind]

end Chomp.Closures
