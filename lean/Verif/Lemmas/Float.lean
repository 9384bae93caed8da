import Verif.Lemmas.Ascii
import Verif.Spec.Float

namespace Chomp.Ascii

open Spec

/-! ### rounding -/

theorem dist_zero {a b : Nat} : dist a b = 0 ↔ a = b := by unfold dist; omega

/-- The interval in which a number is. -/
theorem round_frame {p n : Nat} (hp : 1 ≤ p) (h : ¬ n < 2 ^ p) :
    ∃ s q r, 1 ≤ s ∧ Nat.log2 n + 1 - p = s ∧ n = q * 2 ^ s + r ∧ r < 2 ^ s ∧ 2 ^ (p - 1) ≤ q ∧ q < 2 ^ p ∧
      n / 2 ^ s = q ∧ n % 2 ^ s = r := by
  have hn : n ≠ 0 := by
    intro h0; subst h0; exact h (Nat.pow_pos (by omega))
  have h1 : 2 ^ Nat.log2 n ≤ n := Nat.log2_self_le hn
  have h2 : n < 2 ^ (Nat.log2 n + 1) := Nat.lt_log2_self
  have hlt : p < Nat.log2 n + 1 := by
    apply Nat.lt_of_not_le
    intro hle
    exact h (Nat.lt_of_lt_of_le h2 (Nat.pow_le_pow_right (by omega) hle))
  obtain ⟨s, hs⟩ : ∃ s, Nat.log2 n + 1 - p = s := ⟨_, rfl⟩
  have hu : 0 < 2 ^ s := Nat.pow_pos (by omega)
  refine ⟨s, n / 2 ^ s, n % 2 ^ s, by omega, hs, ?_, Nat.mod_lt _ hu, ?_, ?_, rfl, rfl⟩
  · rw [Nat.mul_comm]; exact (Nat.div_add_mod n (2 ^ s)).symm
  · rw [Nat.le_div_iff_mul_le hu, ← Nat.pow_add]
    rw [show p - 1 + s = Nat.log2 n by omega]; exact h1
  · rw [Nat.div_lt_iff_lt_mul hu, ← Nat.pow_add, show p + s = Nat.log2 n + 1 by omega]; exact h2

/-- Representable numbers are multiples of the unit, or below the interval. -/
theorem representable_cases {p y s : Nat} (h : Representable p y) :
    (∃ c, y = c * 2 ^ s) ∨ y < 2 ^ (p - 1) * 2 ^ s := by
  obtain ⟨m, e, hm, rfl⟩ := h
  by_cases he : s ≤ e
  · exact .inl ⟨m * 2 ^ (e - s), by rw [Nat.mul_assoc, ← Nat.pow_add, Nat.sub_add_cancel he]⟩
  · by_cases hp : p = 0
    · subst hp
      have : m = 0 := by simpa using hm
      subst this
      exact .inl ⟨0, by simp⟩
    · right
      calc m * 2 ^ e < 2 ^ p * 2 ^ e := (Nat.mul_lt_mul_right (Nat.pow_pos (by omega))).mpr hm
        _ = 2 ^ (p + e) := (Nat.pow_add ..).symm
        _ ≤ 2 ^ (p - 1 + s) := Nat.pow_le_pow_right (by omega) (by omega)
        _ = _ := Nat.pow_add ..

/-- Comparison of a representable number with one in the interval. -/
theorem representable_dist {p y s q r : Nat} (h : Representable p y) (hq : 2 ^ (p - 1) ≤ q) :
    y + r < q * 2 ^ s + r ∨ y = q * 2 ^ s ∨ y = (q + 1) * 2 ^ s ∨ (q + 1) * 2 ^ s < y := by
  rcases representable_cases (s := s) h with ⟨c, rfl⟩ | hy
  · by_cases h1 : c < q
    · left
      have := (Nat.mul_lt_mul_right (a := 2 ^ s) (Nat.pow_pos (by omega))).mpr h1
      omega
    · by_cases h2 : c = q
      · exact .inr (.inl (by rw [h2]))
      · by_cases h3 : c = q + 1
        · exact .inr (.inr (.inl (by rw [h3])))
        · exact .inr (.inr (.inr ((Nat.mul_lt_mul_right (Nat.pow_pos (by omega))).mpr (by omega))))
  · left
    have := Nat.mul_le_mul_right (2 ^ s) hq
    omega

theorem roundNat_small {p n : Nat} (h : n < 2 ^ p) : roundNat p n = n := by
  unfold roundNat; rw [if_pos h]

theorem representable_small {p n : Nat} (h : n < 2 ^ p) : Representable p n := ⟨n, 0, h, by simp⟩

theorem representable_pow {p : Nat} (hp : 1 ≤ p) (e : Nat) : Representable p (2 ^ e) :=
  ⟨1, e, Nat.one_lt_two_pow (by omega), by simp⟩

theorem two_pow_pred {p : Nat} (hp : 1 ≤ p) : 2 ^ p = 2 * 2 ^ (p - 1) := by
  obtain ⟨k, rfl⟩ : ∃ k, p = k + 1 := ⟨p - 1, by omega⟩
  rw [Nat.pow_succ, Nat.mul_comm, Nat.add_sub_cancel]

/-- What rounding does with a number of more than `p` bits: it is between two representable ones, `A` and
`A + U`, with none in between. -/
theorem round_large {p n : Nat} (hp : 2 ≤ p) (h : ¬ n < 2 ^ p) :
    ∃ q A U r, n = A + r ∧ r < U ∧ 2 ^ (p - 1) * U ≤ A ∧
      roundNat p n = (if U < 2 * r ∨ (U = 2 * r ∧ q % 2 = 1) then A + U else A) ∧
      Representable p A ∧ Representable p (A + U) ∧
      (Representable (p - 1) A ↔ q % 2 = 0) ∧ (Representable (p - 1) (A + U) ↔ q % 2 = 1) ∧
      ∀ y, Representable p y → y < A ∨ y = A ∨ y = A + U ∨ A + U < y := by
  obtain ⟨s, q, r, hs, e1, e2, e3, e4, e5, e6, e7⟩ := round_frame (by omega) h
  have hx : roundNat p n =
      if 2 ^ s < 2 * r ∨ (2 ^ s = 2 * r ∧ q % 2 = 1) then (q + 1) * 2 ^ s else q * 2 ^ s := by
    unfold roundNat
    rw [if_neg h, e1]
    dsimp only
    rw [e6, e7]
  have hq1 : (q + 1) * 2 ^ s = q * 2 ^ s + 2 ^ s := by rw [Nat.add_mul, Nat.one_mul]
  have hu : 0 < 2 ^ s := Nat.pow_pos (by omega)
  have hp1 := two_pow_pred (p := p) (by omega)
  have hp2 := two_pow_pred (p := p - 1) (by omega)
  have half : ∀ k, 2 * k * 2 ^ s = k * 2 ^ (s + 1) := fun k => by
    rw [Nat.pow_succ, Nat.mul_comm 2 k, Nat.mul_assoc, Nat.mul_comm 2]
  have hback : ∀ c, 2 ^ (p - 1) ≤ c → Representable (p - 1) (c * 2 ^ s) → c % 2 = 0 := by
    intro c hc hr
    rcases representable_cases (s := s + 1) hr with ⟨k, hk⟩ | hk
    · rw [← half] at hk
      have := Nat.eq_of_mul_eq_mul_right hu hk
      omega
    · rw [show 2 ^ (p - 1 - 1) * 2 ^ (s + 1) = 2 * 2 ^ (p - 1 - 1) * 2 ^ s from (half _).symm, ← hp2] at hk
      have := Nat.lt_of_mul_lt_mul_right hk
      omega
  refine ⟨q, q * 2 ^ s, 2 ^ s, r, e2, e3, Nat.mul_le_mul_right _ e4, by rw [hx, hq1], ⟨q, s, e5, rfl⟩, ?_,
    ⟨hback q e4, fun hq => ?_⟩, ⟨fun hr => ?_, fun hq => ?_⟩, fun y hy => ?_⟩
  · rw [← hq1]
    by_cases hlt : q + 1 < 2 ^ p
    · exact ⟨q + 1, s, hlt, rfl⟩
    · rw [show q + 1 = 2 ^ p by omega, ← Nat.pow_add]
      exact representable_pow (by omega) _
  · exact ⟨q / 2, s + 1, by omega, by rw [← half, show 2 * (q / 2) = q by omega]⟩
  · rw [← hq1] at hr
    have := hback (q + 1) (by omega) hr
    omega
  · rw [← hq1]
    obtain ⟨k, hk⟩ : ∃ k, q + 1 = 2 * k := ⟨(q + 1) / 2, by omega⟩
    by_cases hk2 : k < 2 ^ (p - 1)
    · exact ⟨k, s + 1, hk2, by rw [hk, half]⟩
    · have : k = 2 ^ (p - 1) := by omega
      rw [hk, half, this, ← Nat.pow_add]
      exact representable_pow (by omega) _
  · have := representable_dist (r := 0) (s := s) hy e4
    rw [hq1] at this
    simpa using this

theorem roundNat_nearest {p : Nat} (hp : 2 ≤ p) (n : Nat) : Nearest p n (roundNat p n) := by
  by_cases h : n < 2 ^ p
  · rw [roundNat_small h]
    have h0 : dist n n = 0 := dist_zero.mpr rfl
    refine ⟨representable_small h, fun y _ => by omega, fun y _ hne he => ?_⟩
    rw [h0, dist_zero] at he
    exact absurd he hne
  · obtain ⟨q, A, U, r, e1, e2, _, hx, h1, h2, h3, h4, h5⟩ := round_large hp h
    rw [hx]
    refine ⟨?_, fun y hy => ?_, fun y hy hne he => ?_⟩
    · split <;> assumption
    · have := h5 y hy
      unfold dist
      split <;> omega
    · have := h5 y hy
      unfold dist at he
      by_cases hc : U < 2 * r ∨ (U = 2 * r ∧ q % 2 = 1)
      · rw [if_pos hc] at he hne ⊢
        exact h4.mpr (by omega)
      · rw [if_neg hc] at he hne ⊢
        exact h3.mpr (by omega)

/-- There is only one nearest number. -/
theorem nearest_unique {p n x : Nat} (hp : 2 ≤ p) (h : Nearest p n x) : x = roundNat p n := by
  have hr := roundNat_nearest hp n
  apply Classical.byContradiction
  intro hne
  have d1 := h.nearest _ hr.representable
  have d2 := hr.nearest _ h.representable
  have hd : dist x n = dist (roundNat p n) n := by omega
  have k1 := h.even _ hr.representable (fun h => hne h.symm) hd.symm
  have k2 := hr.even _ h.representable hne hd
  by_cases hn : n < 2 ^ p
  · rw [roundNat_small hn, dist_zero.mpr (rfl : n = n)] at hd
    rw [roundNat_small hn] at hne
    exact hne (dist_zero.mp hd)
  · obtain ⟨q, A, U, r, e1, e2, _, hx, _, _, h3, h4, h5⟩ := round_large hp hn
    have := h5 x h.representable
    unfold dist at hd
    by_cases hc : U < 2 * r ∨ (U = 2 * r ∧ q % 2 = 1)
    · rw [if_pos hc] at hx
      rw [hx] at hne hd k2
      have hxa : x = A := by omega
      rw [hxa] at k1
      have := h3.mp k1
      have := h4.mp k2
      omega
    · rw [if_neg hc] at hx
      rw [hx] at hne hd k2
      have hxa : x = A + U := by omega
      rw [hxa] at k1
      have := h4.mp k1
      have := h3.mp k2
      omega

theorem roundNat_representable {p x : Nat} (hp : 2 ≤ p) (h : Representable p x) : roundNat p x = x := by
  have := (roundNat_nearest hp x).nearest x h
  unfold dist at this
  omega

theorem roundNat_mono {p a b : Nat} (hp : 2 ≤ p) (h : a ≤ b) : roundNat p a ≤ roundNat p b := by
  have ha := roundNat_nearest hp a
  have hb := roundNat_nearest hp b
  have h1 := ha.nearest _ hb.representable
  have h2 := hb.nearest _ ha.representable
  by_cases he : a = b
  · rw [he]; exact Nat.le_refl _
  · unfold dist at h1 h2
    omega

theorem roundNat_ge {p t n : Nat} (hp : 2 ≤ p) (h : 2 ^ t ≤ n) : 2 ^ t ≤ roundNat p n := by
  have := roundNat_mono hp h
  rwa [roundNat_representable hp (representable_pow (by omega) t)] at this

/-- Rounding changes a number by at most one in `2 ^ p`. -/
theorem roundNat_error {p : Nat} (hp : 2 ≤ p) (n : Nat) : 2 ^ p * dist (roundNat p n) n ≤ n := by
  by_cases h : n < 2 ^ p
  · rw [roundNat_small h, dist_zero.mpr rfl]
    omega
  · obtain ⟨q, A, U, r, e1, e2, e3, hx, _⟩ := round_large hp h
    have hd : 2 * dist (roundNat p n) n ≤ U := by
      rw [hx]
      unfold dist
      split <;> omega
    rw [two_pow_pred (p := p) (by omega), Nat.mul_comm 2, Nat.mul_assoc]
    have := Nat.mul_le_mul_left (2 ^ (p - 1)) hd
    omega

/-! ### reading digits -/

/-- One step, without a largest number. -/
def decStep (p a : Nat) (c : UInt8) : Nat := roundNat p (roundNat p (a * 10) + (c.toNat - 48))

/-- All of them. -/
def readFl (p : Nat) (ds : List UInt8) : Nat := ds.foldl (decStep p) 0

theorem norm_capped (t : FloatTy) (neg : Bool) (n : Nat) :
    t.norm neg n = Capped t neg (roundNat t.prec n) := rfl

theorem step_capped {t : FloatTy} (hp : 2 ≤ t.prec) (x : Nat) {c : UInt8} (hc : isDigit c = true) :
    stepDec t.num (Capped t false x) c = .ok (Capped t false (decStep t.prec x c)) := by
  obtain ⟨d, hd, hdn⟩ := digitValue_ok hc
  have hmul : t.mul (Capped t false x) (.fin false 10) = Capped t false (roundNat t.prec (x * 10)) := by
    by_cases hx : x < 2 ^ t.top
    · rw [show Capped t false x = .fin false x from if_pos hx]; rfl
    · rw [show Capped t false x = .inf false from if_neg hx]
      have := roundNat_ge (p := t.prec) (t := t.top) (n := x * 10) hp (by omega)
      rw [show Capped t false (roundNat t.prec (x * 10)) = .inf false from if_neg (by omega)]
      rfl
  have hadd : t.add (Capped t false (roundNat t.prec (x * 10))) (.fin false d.toNat) =
      Capped t false (decStep t.prec x c) := by
    unfold decStep
    rw [← hdn]
    generalize roundNat t.prec (x * 10) = y
    by_cases hy : y < 2 ^ t.top
    · rw [show Capped t false y = .fin false y from if_pos hy]; rfl
    · rw [show Capped t false y = .inf false from if_neg hy]
      have := roundNat_ge (p := t.prec) (t := t.top) (n := y + d.toNat) hp (by omega)
      rw [show Capped t false (roundNat t.prec (y + d.toNat)) = .inf false from if_neg (by omega)]
      rfl
  unfold stepDec
  rw [show t.num.mul (Capped t false x) (t.num.fromU8 10) =
    .ok (t.mul (Capped t false x) (.fin false 10)) from rfl, hmul, hd]
  show Res.ok (t.add _ (.fin false d.toNat)) = _
  rw [hadd]

theorem fold_capped {t : FloatTy} (hp : 2 ≤ t.prec) : ∀ (ds : List UInt8) (x : Nat),
    (∀ c ∈ ds, isDigit c = true) →
    ds.foldlM (stepDec t.num) (Capped t false x) = .ok (Capped t false (ds.foldl (decStep t.prec) x))
  | [], _, _ => rfl
  | c :: ds, x, h => by
    rw [List.foldlM_cons, step_capped hp x (h c List.mem_cons_self)]
    exact fold_capped hp ds _ (fun c hc => h c (List.mem_cons_of_mem _ hc))

theorem toDecimal_float {t : FloatTy} (hp : 2 ≤ t.prec) {ds : List UInt8} (h : ∀ c ∈ ds, isDigit c = true) :
    toDecimal t.num ds = .ok (Capped t false (readFl t.prec ds)) := by
  rw [toDecimal_eq]
  exact fold_capped hp ds 0 h ▸ (by
    rw [show Capped t false 0 = .fin false 0 from if_pos (Nat.pow_pos (by omega))]; rfl)

theorem fold_exact {p : Nat} (hp : 2 ≤ p) : ∀ (ds : List UInt8) (x : Nat),
    ds.foldl (fun a c => 10 * a + (c.toNat - 48)) x ≤ 2 ^ p →
    ds.foldl (decStep p) x = ds.foldl (fun a c => 10 * a + (c.toNat - 48)) x := by
  have small : ∀ n, n ≤ 2 ^ p → roundNat p n = n := by
    intro n hn
    rcases Nat.lt_or_eq_of_le hn with h | h
    · exact roundNat_small h
    · rw [h]; exact roundNat_representable hp (representable_pow (by omega) p)
  have grow : ∀ (ds : List UInt8) (x : Nat), x ≤ ds.foldl (fun a c => 10 * a + (c.toNat - 48)) x := by
    intro ds
    induction ds with
    | nil => intro x; exact Nat.le_refl _
    | cons c ds ih =>
      intro x
      rw [List.foldl_cons]
      exact Nat.le_trans (by omega) (ih _)
  intro ds
  induction ds with
  | nil => intro x _; rfl
  | cons c ds ih =>
    intro x h
    rw [List.foldl_cons] at h
    have h1 := grow ds (10 * x + (c.toNat - 48))
    rw [List.foldl_cons, List.foldl_cons]
    have : decStep p x c = 10 * x + (c.toNat - 48) := by
      unfold decStep
      rw [small (x * 10) (by omega), Nat.mul_comm x 10, small _ (by omega)]
    rw [this]
    exact ih _ h

/-! ### error -/

/-- What is read from `k` digits of the value `n` is off by at most `2k` roundings, each of them by at
most one in `2 ^ p`. -/
def Within (p k n x : Nat) : Prop :=
  (2 ^ p - 1) ^ (2 * k) * n ≤ (2 ^ p) ^ (2 * k) * x ∧
  (2 ^ p) ^ (2 * k) * x ≤ (2 ^ p + 1) ^ (2 * k) * n

theorem roundNat_lower {p : Nat} (hp : 2 ≤ p) (n : Nat) : (2 ^ p - 1) * n ≤ 2 ^ p * roundNat p n := by
  have h := roundNat_error hp n
  unfold dist at h
  rw [Nat.sub_mul, Nat.one_mul]
  by_cases hx : roundNat p n ≤ n
  · rw [show roundNat p n - n = 0 by omega, Nat.zero_add, Nat.mul_sub] at h
    omega
  · have := Nat.mul_le_mul_left (2 ^ p) (show n ≤ roundNat p n by omega)
    omega

theorem roundNat_upper {p : Nat} (hp : 2 ≤ p) (n : Nat) : 2 ^ p * roundNat p n ≤ (2 ^ p + 1) * n := by
  have h := roundNat_error hp n
  unfold dist at h
  rw [Nat.add_mul, Nat.one_mul]
  by_cases hx : n ≤ roundNat p n
  · rw [show n - roundNat p n = 0 by omega, Nat.add_zero, Nat.mul_sub] at h
    omega
  · have := Nat.mul_le_mul_left (2 ^ p) (show roundNat p n ≤ n by omega)
    omega

/-- Two steps of multiplication by numbers not above `P`. -/
theorem lower_step {P L A B n x y d x' : Nat} (hL : L ≤ P) (hB : B ≤ A) (h : B * n ≤ A * x)
    (hy : L * (x * 10) ≤ P * y) (hx : L * (y + d) ≤ P * x') :
    B * (L * L) * (10 * n + d) ≤ A * (P * P) * x' := by
  have h1 : L * (L * (10 * x + d)) ≤ P * (P * x') := by
    calc L * (L * (10 * x + d)) = L * (L * (x * 10) + L * d) := by
            rw [Nat.mul_add L (10 * x), Nat.mul_comm 10 x]
      _ ≤ L * (P * y + P * d) := Nat.mul_le_mul_left L (Nat.add_le_add hy (Nat.mul_le_mul_right d hL))
      _ = P * (L * (y + d)) := by rw [← Nat.mul_add]; ac_rfl
      _ ≤ P * (P * x') := Nat.mul_le_mul_left P hx
  have h2 : B * (10 * n + d) ≤ A * (10 * x + d) := by
    rw [Nat.mul_add, Nat.mul_add]
    refine Nat.add_le_add ?_ (Nat.mul_le_mul_right d hB)
    calc B * (10 * n) = 10 * (B * n) := by ac_rfl
      _ ≤ 10 * (A * x) := Nat.mul_le_mul_left 10 h
      _ = A * (10 * x) := by ac_rfl
  calc B * (L * L) * (10 * n + d) = L * L * (B * (10 * n + d)) := by ac_rfl
    _ ≤ L * L * (A * (10 * x + d)) := Nat.mul_le_mul_left _ h2
    _ = A * (L * (L * (10 * x + d))) := by ac_rfl
    _ ≤ A * (P * (P * x')) := Nat.mul_le_mul_left _ h1
    _ = A * (P * P) * x' := by ac_rfl

theorem upper_step {P H A B n x y d x' : Nat} (hH : P ≤ H) (hB : A ≤ B) (h : A * x ≤ B * n)
    (hy : P * y ≤ H * (x * 10)) (hx : P * x' ≤ H * (y + d)) :
    A * (P * P) * x' ≤ B * (H * H) * (10 * n + d) := by
  have h1 : P * (P * x') ≤ H * (H * (10 * x + d)) := by
    calc P * (P * x') ≤ P * (H * (y + d)) := Nat.mul_le_mul_left P hx
      _ = H * (P * y + P * d) := by rw [← Nat.mul_add]; ac_rfl
      _ ≤ H * (H * (x * 10) + H * d) :=
            Nat.mul_le_mul_left H (Nat.add_le_add hy (Nat.mul_le_mul_right d hH))
      _ = H * (H * (10 * x + d)) := by rw [Nat.mul_add H (10 * x), Nat.mul_comm 10 x]
  have h2 : A * (10 * x + d) ≤ B * (10 * n + d) := by
    rw [Nat.mul_add, Nat.mul_add]
    refine Nat.add_le_add ?_ (Nat.mul_le_mul_right d hB)
    calc A * (10 * x) = 10 * (A * x) := by ac_rfl
      _ ≤ 10 * (B * n) := Nat.mul_le_mul_left 10 h
      _ = B * (10 * n) := by ac_rfl
  calc A * (P * P) * x' = A * (P * (P * x')) := by ac_rfl
    _ ≤ A * (H * (H * (10 * x + d))) := Nat.mul_le_mul_left _ h1
    _ = H * H * (A * (10 * x + d)) := by ac_rfl
    _ ≤ H * H * (B * (10 * n + d)) := Nat.mul_le_mul_left _ h2
    _ = B * (H * H) * (10 * n + d) := by ac_rfl

theorem within_step {p k n x : Nat} (hp : 2 ≤ p) (c : UInt8) (h : Within p k n x) :
    Within p (k + 1) (10 * n + (c.toNat - 48)) (decStep p x c) := by
  have e : ∀ a : Nat, a ^ (2 * (k + 1)) = a ^ (2 * k) * (a * a) := fun a => by
    rw [show 2 * (k + 1) = 2 * k + 2 by omega, Nat.pow_add, Nat.pow_two]
  unfold Within
  rw [e, e, e]
  exact ⟨lower_step (Nat.sub_le _ _) (Nat.pow_le_pow_left (Nat.sub_le _ _) _) h.1
      (roundNat_lower hp _) (roundNat_lower hp _),
    upper_step (Nat.le_succ _) (Nat.pow_le_pow_left (Nat.le_succ _) _) h.2
      (roundNat_upper hp _) (roundNat_upper hp _)⟩

theorem fold_within {p : Nat} (hp : 2 ≤ p) : ∀ (ds : List UInt8) (k n x : Nat), Within p k n x →
    Within p (k + ds.length) (ds.foldl (fun a c => 10 * a + (c.toNat - 48)) n) (ds.foldl (decStep p) x)
  | [], _, _, _, h => h
  | c :: ds, k, n, x, h => by
    have := fold_within hp ds (k + 1) _ _ (within_step hp c h)
    rw [List.length_cons, show k + (ds.length + 1) = k + 1 + ds.length by omega]
    exact this

theorem power_lower (L m : Nat) : (L + 1) ^ m * (L + 1 - m) ≤ (L + 1) * L ^ m := by
  induction m with
  | zero => simp
  | succ m ih =>
    have h1 : (L + 1) * (L + 1 - (m + 1)) ≤ L * (L + 1 - m) := by
      by_cases h : m ≤ L
      · obtain ⟨d, rfl⟩ : ∃ d, L = m + d := ⟨L - m, by omega⟩
        rw [show m + d + 1 - (m + 1) = d by omega, show m + d + 1 - m = d + 1 by omega,
          Nat.add_mul, Nat.mul_add]
        omega
      · rw [show L + 1 - (m + 1) = 0 by omega, Nat.mul_zero]
        exact Nat.zero_le _
    calc (L + 1) ^ (m + 1) * (L + 1 - (m + 1))
        = (L + 1) ^ m * ((L + 1) * (L + 1 - (m + 1))) := by rw [Nat.pow_succ, Nat.mul_assoc]
      _ ≤ (L + 1) ^ m * (L * (L + 1 - m)) := Nat.mul_le_mul_left _ h1
      _ = L * ((L + 1) ^ m * (L + 1 - m)) := by ac_rfl
      _ ≤ L * ((L + 1) * L ^ m) := Nat.mul_le_mul_left _ ih
      _ = (L + 1) * L ^ (m + 1) := by rw [Nat.pow_succ]; ac_rfl

theorem power_upper (P m : Nat) (h : 2 * m ≤ P) : (P + 1) ^ m * P ≤ P ^ m * (P + 2 * m) := by
  induction m with
  | zero => simp
  | succ m ih =>
    have h1 : (P + 1) * (P + 2 * m) ≤ P * (P + 2 * (m + 1)) := by
      rw [Nat.add_mul, Nat.one_mul, Nat.mul_add P P (2 * m), Nat.mul_add P P (2 * (m + 1)),
        show 2 * (m + 1) = 2 * m + 2 by omega, Nat.mul_add P (2 * m)]
      omega
    calc (P + 1) ^ (m + 1) * P = (P + 1) * ((P + 1) ^ m * P) := by rw [Nat.pow_succ]; ac_rfl
      _ ≤ (P + 1) * (P ^ m * (P + 2 * m)) := Nat.mul_le_mul_left _ (ih (by omega))
      _ = P ^ m * ((P + 1) * (P + 2 * m)) := by ac_rfl
      _ ≤ P ^ m * (P * (P + 2 * (m + 1))) := Nat.mul_le_mul_left _ h1
      _ = P ^ (m + 1) * (P + 2 * (m + 1)) := by rw [Nat.pow_succ]; ac_rfl

/-- The error, read off. -/
theorem Within.dist {p k n x : Nat} (h : Within p k n x) (hk : 4 * k ≤ 2 ^ p) :
    2 ^ p * dist x n ≤ 4 * k * n := by
  obtain ⟨L, hL⟩ : ∃ L, 2 ^ p = L + 1 := ⟨2 ^ p - 1, by have : 0 < 2 ^ p := Nat.pow_pos (by omega); omega⟩
  obtain ⟨h1, h2⟩ := h
  rw [hL] at h1 h2 hk ⊢
  rw [Nat.add_sub_cancel] at h1
  have hpos : 0 < (L + 1) ^ (2 * k) := Nat.pow_pos (by omega)
  have g1 : (L + 1 - 2 * k) * n ≤ (L + 1) * x := by
    refine Nat.le_of_mul_le_mul_left ?_ hpos
    calc (L + 1) ^ (2 * k) * ((L + 1 - 2 * k) * n)
        = (L + 1) ^ (2 * k) * (L + 1 - 2 * k) * n := (Nat.mul_assoc ..).symm
      _ ≤ (L + 1) * L ^ (2 * k) * n := Nat.mul_le_mul_right _ (power_lower L (2 * k))
      _ = (L + 1) * (L ^ (2 * k) * n) := Nat.mul_assoc ..
      _ ≤ (L + 1) * ((L + 1) ^ (2 * k) * x) := Nat.mul_le_mul_left _ h1
      _ = (L + 1) ^ (2 * k) * ((L + 1) * x) := by ac_rfl
  have g2 : (L + 1) * x ≤ (L + 1 + 4 * k) * n := by
    refine Nat.le_of_mul_le_mul_left ?_ hpos
    calc (L + 1) ^ (2 * k) * ((L + 1) * x) = (L + 1) * ((L + 1) ^ (2 * k) * x) := by ac_rfl
      _ ≤ (L + 1) * ((L + 1 + 1) ^ (2 * k) * n) := Nat.mul_le_mul_left _ h2
      _ = (L + 1 + 1) ^ (2 * k) * (L + 1) * n := by ac_rfl
      _ ≤ (L + 1) ^ (2 * k) * (L + 1 + 2 * (2 * k)) * n :=
          Nat.mul_le_mul_right _ (power_upper (L + 1) (2 * k) (by omega))
      _ = (L + 1) ^ (2 * k) * ((L + 1 + 4 * k) * n) := by
          rw [Nat.mul_assoc, show 2 * (2 * k) = 4 * k by omega]
  unfold Spec.dist
  rw [Nat.add_mul (L + 1) (4 * k) n] at g2
  rw [Nat.sub_mul] at g1
  rw [Nat.mul_add, Nat.mul_sub, Nat.mul_sub]
  have : 2 * k * n ≤ 4 * k * n := Nat.mul_le_mul_right _ (by omega)
  omega

theorem readFl_representable {p : Nat} (hp : 2 ≤ p) (ds : List UInt8) : Representable p (readFl p ds) := by
  have : ∀ (ds : List UInt8) x, Representable p x → Representable p (ds.foldl (decStep p) x) := by
    intro ds
    induction ds with
    | nil => exact fun _ h => h
    | cons c ds ih => exact fun x _ => ih _ (roundNat_nearest hp _).representable
  exact this ds 0 ⟨0, 0, Nat.pow_pos (by omega), rfl⟩

theorem readFl_error {p : Nat} (hp : 2 ≤ p) (pre suf : List UInt8) (h : value pre ≤ 2 ^ p)
    (hk : 4 * suf.length ≤ 2 ^ p) :
    2 ^ p * dist (readFl p (pre ++ suf)) (value (pre ++ suf)) ≤ 4 * suf.length * value (pre ++ suf) := by
  refine Within.dist ?_ hk
  unfold readFl value
  rw [List.foldl_append, List.foldl_append, fold_exact hp pre 0 h]
  have := fold_within hp suf 0 (value pre) (value pre) ⟨by simp, by simp⟩
  rwa [Nat.zero_add] at this

/-! ### Ranges -/

theorem value_snoc (ds : List UInt8) (c : UInt8) : value (ds ++ [c]) = 10 * value ds + (c.toNat - 48) := by
  simp [value, List.foldl_append]

/-- After the longest beginning which is exact there are not many digits. -/
theorem split_value {p : Nat} : ∀ (n : Nat) (ds : List UInt8) (K : Nat), ds.length = n → value ds < 10 ^ K * 2 ^ p →
    ∃ pre suf, ds = pre ++ suf ∧ value pre ≤ 2 ^ p ∧ suf.length ≤ K := by
  intro n
  induction n with
  | zero =>
    intro ds K hn _
    have : ds = [] := List.length_eq_zero_iff.mp hn
    subst this
    exact ⟨[], [], rfl, Nat.zero_le _, Nat.zero_le _⟩
  | succ n ih =>
    intro ds K hn hv
    by_cases hs : value ds ≤ 2 ^ p
    · exact ⟨ds, [], (List.append_nil _).symm, hs, Nat.zero_le _⟩
    · have hne : ds ≠ [] := by intro h; subst h; cases hn
      have hd := List.dropLast_concat_getLast hne
      generalize ds.getLast hne = c at hd
      generalize he : ds.dropLast = ds' at hd
      subst hd
      rw [value_snoc] at hs hv
      cases K with
      | zero => rw [Nat.pow_zero, Nat.one_mul] at hv; omega
      | succ K =>
        have hlen : ds'.length = n := by rw [List.length_append] at hn; simpa using hn
        have h10 : 10 ^ (K + 1) * 2 ^ p = 10 * (10 ^ K * 2 ^ p) := by rw [Nat.pow_succ, Nat.mul_comm _ 10, Nat.mul_assoc]
        rw [h10] at hv
        obtain ⟨pre, suf, h1, h2, h3⟩ := ih ds' K hlen (by omega)
        exact ⟨pre, suf ++ [c], by rw [h1, List.append_assoc], h2, by rw [List.length_append]; simpa using h3⟩

/-- A large number begins with one which is not much larger than necessary. -/
theorem prefix_value {T : Nat} (hT : 0 < T) : ∀ (n : Nat) (ds : List UInt8), ds.length = n → (∀ c ∈ ds, c.toNat ≤ 57) →
    T ≤ value ds → ∃ pre suf, ds = pre ++ suf ∧ T ≤ value pre ∧ value pre < 10 * T := by
  intro n
  induction n with
  | zero =>
    intro ds hn _ hv
    have : ds = [] := List.length_eq_zero_iff.mp hn
    subst this
    exact absurd hv (Nat.not_le.mpr hT)
  | succ n ih =>
    intro ds hn hc hv
    have hne : ds ≠ [] := by intro h; subst h; cases hn
    have hd := List.dropLast_concat_getLast hne
    generalize ds.getLast hne = c at hd
    generalize he : ds.dropLast = ds' at hd
    subst hd
    by_cases hs : T ≤ value ds'
    · have hlen : ds'.length = n := by rw [List.length_append] at hn; simpa using hn
      obtain ⟨pre, suf, h1, h2, h3⟩ := ih ds' hlen (fun c h => hc c (List.mem_append_left _ h)) hs
      exact ⟨pre, suf ++ [c], by rw [h1, List.append_assoc], h2, h3⟩
    · refine ⟨_, [], (List.append_nil _).symm, hv, ?_⟩
      have := hc c (List.mem_append_right _ List.mem_cons_self)
      rw [value_snoc]
      omega

theorem decStep_ge {p : Nat} (hp : 2 ≤ p) {x : Nat} (h : Representable p x) (c : UInt8) : x ≤ decStep p x c := by
  have h1 : x ≤ roundNat p (x * 10) := by
    have := roundNat_mono hp (show x ≤ x * 10 by omega)
    rwa [roundNat_representable hp h] at this
  have := roundNat_mono hp (show x ≤ roundNat p (x * 10) + (c.toNat - 48) by omega)
  rwa [roundNat_representable hp h] at this

theorem readFl_prefix {p : Nat} (hp : 2 ≤ p) (pre suf : List UInt8) : readFl p pre ≤ readFl p (pre ++ suf) := by
  induction suf generalizing pre with
  | nil => rw [List.append_nil]; exact Nat.le_refl _
  | cons c cs ih =>
    have h := ih (pre ++ [c])
    rw [List.append_assoc] at h
    refine Nat.le_trans ?_ h
    show _ ≤ (pre ++ [c]).foldl (decStep p) 0
    rw [List.foldl_append]
    exact decStep_ge hp (readFl_representable hp pre) c

/-- Numbers which are not above `lo` stay below `2 ^ top`. -/
theorem readFl_lt {p top lo K : Nat} (hp : 2 ≤ p) (hK : 4 * K ≤ 2 ^ p) (h1 : lo < 10 ^ K * 2 ^ p)
    (h2 : (2 ^ p + 4 * K) * lo < 2 ^ p * 2 ^ top) (ds : List UInt8) (h : value ds ≤ lo) :
    readFl p ds < 2 ^ top := by
  obtain ⟨pre, suf, he, h3, h4⟩ := split_value _ ds K rfl (Nat.lt_of_le_of_lt h h1)
  have hd := readFl_error hp pre suf h3 (by omega)
  rw [← he] at hd
  have h5 : 4 * suf.length * value ds ≤ 4 * K * lo := Nat.mul_le_mul (by omega) h
  have h6 : readFl p ds ≤ value ds + dist (readFl p ds) (value ds) := by unfold dist; omega
  have h7 := Nat.mul_le_mul_left (2 ^ p) h6
  rw [Nat.mul_add] at h7
  have h8 := Nat.mul_le_mul_left (2 ^ p) h
  rw [Nat.add_mul] at h2
  exact Nat.lt_of_mul_lt_mul_left (a := 2 ^ p) (by omega)

/-- Numbers which are not below `hi` reach `2 ^ top`. -/
theorem le_readFl {p top hi K : Nat} (hp : 2 ≤ p) (hK : 4 * K ≤ 2 ^ p) (h0 : 0 < hi)
    (h1 : 10 * hi ≤ 10 ^ K * 2 ^ p) (h2 : 2 ^ p * 2 ^ top ≤ (2 ^ p - 4 * K) * hi) (ds : List UInt8)
    (hc : ∀ c ∈ ds, c.toNat ≤ 57) (h : hi ≤ value ds) : 2 ^ top ≤ readFl p ds := by
  obtain ⟨ds', more, he, h3, h4⟩ := prefix_value h0 _ ds rfl hc h
  rw [he]
  refine Nat.le_trans ?_ (readFl_prefix hp ds' more)
  obtain ⟨pre, suf, he', h5, h6⟩ := split_value _ ds' K rfl (Nat.lt_of_lt_of_le h4 h1)
  have hd := readFl_error hp pre suf h5 (by omega)
  rw [← he'] at hd
  have h7 : 4 * suf.length * value ds' ≤ 4 * K * value ds' := Nat.mul_le_mul_right _ (by omega)
  have h8 : value ds' ≤ readFl p ds' + dist (readFl p ds') (value ds') := by unfold dist; omega
  have h9 := Nat.mul_le_mul_left (2 ^ p) h8
  rw [Nat.mul_add] at h9
  have h10 := Nat.mul_le_mul_left (2 ^ p - 4 * K) h3
  rw [Nat.sub_mul _ _ (value ds')] at h10
  have h11 : 2 ^ p * 2 ^ top ≤ 2 ^ p * readFl p ds' := by omega
  exact Nat.le_of_mul_le_mul_left h11 (Nat.pow_pos (by omega))

end Chomp.Ascii
