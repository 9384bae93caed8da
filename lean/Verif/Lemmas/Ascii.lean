import Verif.Lemmas.Basic
import Verif.Spec.Ascii

namespace Chomp.Ascii

open Spec

/-! ### integers -/

theorem pow_pos' (n : Nat) : (0 : Int) < 2 ^ n := Int.pow_pos (by omega)

theorem pow_mono {m n : Nat} (h : m ≤ n) : (2 : Int) ^ m ≤ 2 ^ n := by
  exact_mod_cast Nat.pow_le_pow_right (n := 2) (by omega) h

theorem span (t : IntTy) (h : t.signed = true → 1 ≤ t.bits) : t.max - t.min + 1 = 2 ^ t.bits := by
  unfold IntTy.max IntTy.min
  cases hs : t.signed with
  | false => simp
  | true =>
    have := h hs
    simp only [if_true]
    obtain ⟨n, hn⟩ : ∃ n, t.bits = n + 1 := ⟨t.bits - 1, by omega⟩
    rw [hn, Nat.add_sub_cancel, Int.pow_succ]
    omega

theorem holds_bits {t : IntTy} (h : HoldsU8 t) : t.signed = true → 1 ≤ t.bits := by
  intro hs; simp only [HoldsU8, hs, if_true] at h; omega

theorem min_le (t : IntTy) : t.min ≤ 0 := by
  unfold IntTy.min
  split
  · have := pow_pos' (t.bits - 1); omega
  · omega

theorem max_ge {t : IntTy} (h : HoldsU8 t) : 255 ≤ t.max := by
  unfold HoldsU8 at h
  unfold IntTy.max
  split at h
  · rename_i hs
    simp only [hs, if_true]
    have : (2 : Int) ^ 8 ≤ 2 ^ (t.bits - 1) := pow_mono (by omega)
    omega
  · rename_i hs
    simp only [hs]
    have : (2 : Int) ^ 8 ≤ 2 ^ t.bits := pow_mono (by omega)
    simp only [Bool.false_eq_true, if_false]
    omega

theorem norm_fits {t : IntTy} {x : Int} (h : t.min ≤ x ∧ x ≤ t.max) : t.norm x = .ok x := by
  simp [IntTy.norm, h]

theorem norm_panics {t : IntTy} {x : Int} (h : ¬ (t.min ≤ x ∧ x ≤ t.max)) (hc : t.checked = true) :
    t.norm x = .panic := by
  simp [IntTy.norm, h, hc]

/-- A wrapping operation yields the representative. -/
theorem norm_wraps {t : IntTy} (hc : t.checked = false) (hb : t.signed = true → 1 ≤ t.bits)
    (x : Int) : ∃ y, t.norm x = .ok y ∧ Wraps t x y := by
  have hs := span t hb
  have hp := pow_pos' t.bits
  by_cases h : t.min ≤ x ∧ x ≤ t.max
  · exact ⟨x, norm_fits h, h.1, h.2, 0, by omega⟩
  · refine ⟨_, by simp [IntTy.norm, h, hc]; rfl, ?_, ?_, -((x - t.min) / 2 ^ t.bits), ?_⟩
    · have := Int.emod_nonneg (x - t.min) (by omega : (2 : Int) ^ t.bits ≠ 0); omega
    · have := Int.emod_lt_of_pos (x - t.min) hp; omega
    · have := Int.emod_add_mul_ediv (x - t.min) (2 ^ t.bits)
      rw [Int.neg_mul, Int.mul_comm]
      omega

/-- Representatives are unique. -/
theorem wraps_unique {t : IntTy} (hb : t.signed = true → 1 ≤ t.bits) {z x y : Int}
    (hx : Wraps t z x) (hy : Wraps t z y) : x = y := by
  obtain ⟨h1, h2, k, hk⟩ := hx
  obtain ⟨h3, h4, l, hl⟩ := hy
  have hs := span t hb
  have hp := pow_pos' t.bits
  have e : x - y = (k - l) * 2 ^ t.bits := by rw [Int.sub_mul]; omega
  rcases Int.lt_trichotomy (k - l) 0 with h | h | h
  · have : (k - l) * 2 ^ t.bits ≤ (-1) * 2 ^ t.bits :=
      Int.mul_le_mul_of_nonneg_right (by omega) (by omega)
    omega
  · rw [h] at e; omega
  · have : 1 * 2 ^ t.bits ≤ (k - l) * 2 ^ t.bits :=
      Int.mul_le_mul_of_nonneg_right (by omega) (by omega)
    omega

theorem _root_.Chomp.Spec.Wraps.mul_add {t : IntTy} {z x a y b c : Int} (h1 : Wraps t z x) (h2 : Wraps t (x * a) y)
    (h3 : Wraps t (y + b) c) : Wraps t (z * a + b) c := by
  obtain ⟨_, _, k, rfl⟩ := h1
  obtain ⟨_, _, l, rfl⟩ := h2
  obtain ⟨h5, h6, j, hj⟩ := h3
  refine ⟨h5, h6, k * a + l + j, ?_⟩
  rw [hj]
  simp only [Int.add_mul, Int.mul_right_comm]
  omega

theorem _root_.Chomp.Spec.Wraps.neg {t : IntTy} {z x y : Int} (h1 : Wraps t z x) (h2 : Wraps t (-1 * x) y) :
    Wraps t (-z) y := by
  obtain ⟨_, _, k, rfl⟩ := h1
  obtain ⟨h5, h6, j, hj⟩ := h2
  refine ⟨h5, h6, -k + j, ?_⟩
  rw [hj]
  simp only [Int.add_mul, Int.mul_add, Int.neg_mul, Int.one_mul]
  omega

theorem _root_.Chomp.Spec.Wraps.refl {t : IntTy} {x : Int} (h : t.min ≤ x ∧ x ≤ t.max) : Wraps t x x :=
  ⟨h.1, h.2, 0, by omega⟩

/-! ### digits -/

theorem isDigit_iff (c : UInt8) : isDigit c = true ↔ byte '0' ≤ c ∧ c ≤ byte '9' := by
  simp only [isDigit, Bool.and_eq_true, decide_eq_true_eq]
  exact Iff.rfl

theorem digit_range {c : UInt8} (h : isDigit c = true) : 48 ≤ c.toNat ∧ c.toNat ≤ 57 := by
  simp only [isDigit, Bool.and_eq_true, decide_eq_true_eq, UInt8.le_iff_toNat_le] at h
  exact h

theorem digitValue_ok {c : UInt8} (h : isDigit c = true) :
    ∃ d, digitValue c = .ok d ∧ d.toNat = c.toNat - 48 := by
  have hr := digit_range h
  have h48 : (48 : UInt8) ≤ c := by rw [UInt8.le_iff_toNat_le]; exact hr.1
  refine ⟨c - 48, by simp [digitValue, h48], ?_⟩
  rw [UInt8.toNat_sub_of_le _ _ h48]
  rfl

/-- One step of `to_decimal`. -/
def stepDec (N : Num T) (a : T) (n : UInt8) : Res T := do
  let x ← N.mul a (N.fromU8 10)
  let d ← digitValue n
  N.add x (N.fromU8 d)

theorem toDecimal_eq (N : Num T) (b : List UInt8) :
    toDecimal N b = b.foldlM (stepDec N) (N.fromU8 0) := rfl

/-- The value, starting from `x`. -/
def valueFrom (x : Nat) (ds : List UInt8) : Nat := ds.foldl (fun a c => 10 * a + (c.toNat - 48)) x

theorem le_valueFrom (ds : List UInt8) : ∀ x, x ≤ valueFrom x ds := by
  induction ds with
  | nil => intro x; exact Nat.le_refl _
  | cons c ds ih =>
    intro x
    exact Nat.le_trans (by omega : x ≤ 10 * x + (c.toNat - 48)) (ih _)

theorem stepDec_fits {t : IntTy} {x : Nat} {c : UInt8} (hc : isDigit c = true)
    (h : ((10 * x + (c.toNat - 48) : Nat) : Int) ≤ t.max) :
    stepDec t.num (x : Int) c = .ok ((10 * x + (c.toNat - 48) : Nat) : Int) := by
  obtain ⟨d, hd, hdn⟩ := digitValue_ok hc
  have hm := min_le t
  have e1 : t.num.mul (x : Int) (t.num.fromU8 10) = .ok ((x : Int) * 10) :=
    norm_fits ⟨by show t.min ≤ (x : Int) * 10; omega, by show (x : Int) * 10 ≤ t.max; omega⟩
  have e2 : t.num.add ((x : Int) * 10) (t.num.fromU8 d) = .ok ((x : Int) * 10 + d.toNat) :=
    norm_fits ⟨by show t.min ≤ (x : Int) * 10 + d.toNat; omega,
      by show (x : Int) * 10 + d.toNat ≤ t.max; omega⟩
  unfold stepDec
  rw [e1, hd]
  simp only [Res.bind_ok]
  rw [e2, hdn]
  congr 1
  omega

theorem fold_fits {t : IntTy} : ∀ (ds : List UInt8) (x : Nat), (∀ c ∈ ds, isDigit c = true) →
    (valueFrom x ds : Int) ≤ t.max →
    ds.foldlM (stepDec t.num) (x : Int) = .ok (valueFrom x ds : Int) := by
  intro ds
  induction ds with
  | nil => intro x _ _; rfl
  | cons c ds ih =>
    intro x hd h
    have h1 : (valueFrom (10 * x + (c.toNat - 48)) ds : Int) ≤ t.max := h
    have h2 := le_valueFrom ds (10 * x + (c.toNat - 48))
    rw [List.foldlM_cons, stepDec_fits (hd c (by simp)) (by omega)]
    exact ih _ (fun d h => hd d (by simp [h])) h1

theorem fold_panics {t : IntTy} (hc : t.checked = true) :
    ∀ (ds : List UInt8) (x : Nat), (∀ c ∈ ds, isDigit c = true) →
    (x : Int) ≤ t.max → t.max < (valueFrom x ds : Int) →
    ds.foldlM (stepDec t.num) (x : Int) = .panic := by
  intro ds
  induction ds with
  | nil => intro x _ h1 h2; simp only [valueFrom, List.foldl_nil] at h2; omega
  | cons c ds ih =>
    intro x hd hx h
    have h1 : t.max < (valueFrom (10 * x + (c.toNat - 48)) ds : Int) := h
    rw [List.foldlM_cons]
    by_cases hf : ((10 * x + (c.toNat - 48) : Nat) : Int) ≤ t.max
    · rw [stepDec_fits (hd c (by simp)) hf]
      exact ih _ (fun d h => hd d (by simp [h])) hf h1
    · have : stepDec t.num (x : Int) c = .panic := by
        obtain ⟨d, hd', hdn⟩ := digitValue_ok (hd c (by simp))
        have hm := min_le t
        unfold stepDec
        by_cases h10 : (x : Int) * 10 ≤ t.max
        · have e1 : t.num.mul (x : Int) (t.num.fromU8 10) = .ok ((x : Int) * 10) :=
            norm_fits ⟨by show t.min ≤ (x : Int) * 10; omega, h10⟩
          have e2 : t.num.add ((x : Int) * 10) (t.num.fromU8 d) = .panic := by
            refine norm_panics (x := (x : Int) * 10 + d.toNat) ?_ hc
            omega
          rw [e1, hd']
          simp only [Res.bind_ok]
          exact e2
        · have e1 : t.num.mul (x : Int) (t.num.fromU8 10) = .panic := by
            refine norm_panics (x := (x : Int) * 10) ?_ hc
            omega
          rw [e1]; rfl
      rw [this]; rfl

theorem fold_wraps {t : IntTy} (hc : t.checked = false) (hb : t.signed = true → 1 ≤ t.bits) :
    ∀ (ds : List UInt8) (x : Nat) (y : Int), (∀ c ∈ ds, isDigit c = true) → Wraps t x y →
    ∃ z, ds.foldlM (stepDec t.num) y = .ok z ∧ Wraps t (valueFrom x ds) z := by
  intro ds
  induction ds with
  | nil => intro x y _ h; exact ⟨y, rfl, h⟩
  | cons c ds ih =>
    intro x y hd h
    obtain ⟨d, hd', hdn⟩ := digitValue_ok (hd c (by simp))
    obtain ⟨u, hu, hwu⟩ := norm_wraps hc hb (y * 10)
    obtain ⟨v, hv, hwv⟩ := norm_wraps hc hb (u + d.toNat)
    have e : stepDec t.num y c = .ok v := by
      have e1 : t.num.mul y (t.num.fromU8 10) = .ok u := hu
      have e2 : t.num.add u (t.num.fromU8 d) = .ok v := hv
      unfold stepDec
      rw [e1, hd']
      simp only [Res.bind_ok]
      exact e2
    have hw := h.mul_add hwu hwv
    rw [List.foldlM_cons, e]
    refine ih (10 * x + (c.toNat - 48)) v (fun d h => hd d (by simp [h])) ?_
    have : ((10 * x + (c.toNat - 48) : Nat) : Int) = (x : Int) * 10 + d.toNat := by omega
    rw [this]; exact hw

/-! ### decimal -/

theorem run_takeWhile {m : Mode} {ds rest : List UInt8} (h : DigitRun m ds rest) :
    (ds ++ rest).takeWhile isDigit = ds ∧ (ds ++ rest).dropWhile isDigit = rest := by
  obtain ⟨h0, hd, hr⟩ := h
  have hd' : ∀ c ∈ ds, isDigit c = true := fun c hc => (isDigit_iff c).mpr (hd c hc)
  clear hd h0
  induction ds with
  | nil =>
    cases rest with
    | nil => exact ⟨rfl, rfl⟩
    | cons c r =>
      have : ¬ isDigit c = true := fun e => hr ((isDigit_iff c).mp e)
      simp [this]
  | cons c ds ih =>
    have hc := hd' c (by simp)
    have := ih (fun d h => hd' d (by simp [h]))
    simp only [List.cons_append, List.takeWhile_cons, List.dropWhile_cons, hc, if_true]
    exact ⟨by rw [this.1], this.2⟩

theorem run_not_all {m : Mode} {ds rest : List UInt8} (h : DigitRun m ds rest) :
    ¬ (m = .default ∧ (ds ++ rest).all isDigit = true) := by
  rintro ⟨hm, ha⟩
  obtain ⟨_, _, hr⟩ := h
  cases rest with
  | nil => rw [hm] at hr; cases hr
  | cons c r =>
    apply hr
    rw [← isDigit_iff]
    simp only [List.all_append, List.all_cons, Bool.and_eq_true] at ha
    exact ha.2.1

theorem decimal_run {m : Mode} {ds rest : List UInt8} (h : DigitRun m ds rest) (v : Bool)
    (N : Num T) (w : σ) :
    decimal v N ⟨m, ds ++ rest⟩ w =
      (M.lift (toDecimal N ds) : M σ T) w >>= fun x => .ok (.data ⟨m, rest⟩ x.1, x.2) := by
  unfold decimal Parser.bind
  have hw := run_takeWhile h
  have hn := run_not_all h
  have : Parsers.takeWhile1 v isDigit ⟨m, ds ++ rest⟩ w = .ok (.data ⟨m, rest⟩ ds, w) := by
    rw [Parsers.takeWhile1_eq]
    obtain ⟨h0, hd, _⟩ := h
    cases ds with
    | nil => exact absurd rfl h0
    | cons c ds =>
      have hc : isDigit c = true := (isDigit_iff c).mpr (hd c (by simp))
      dsimp only [List.cons_append] at hw hn ⊢
      rw [if_neg (by simp [hc]), if_neg hn, hw.1, hw.2]
  rw [M.bind_ok this, ParseResult.bind_data]
  rfl

/-! ### signed -/

/-- Multiply the result by `s`. -/
def times (N : Num T) (s : T) (x : Res (ParseResult UInt8 T (Error UInt8) × σ)) :
    Res (ParseResult UInt8 T (Error UInt8) × σ) :=
  match x with
  | .ok (.data i n, w) => (M.lift (N.mul s n) : M σ T) w >>= fun y => .ok (.data i y.1, y.2)
  | .ok (.error b e, w) => .ok (.error b e, w)
  | .ok (.incomplete n, w) => .ok (.incomplete n, w)
  | .panic => .panic
  | .ub => .ub
  | .div => .div

theorem signed_eq (v : Bool) (N : Num T) (p : Parser σ UInt8 T (Error UInt8)) (i : Input UInt8)
    (w : σ) :
    signed v N p i w = match i.buf with
      | [] => if i.mode = .endOfInput then times N (N.fromI8 1) (p i w) else .ok (.incomplete 1, w)
      | c :: r =>
        if c = 45 then times N (N.fromI8 (-1)) (p ⟨i.mode, r⟩ w)
        else if c = 43 then times N (N.fromI8 1) (p ⟨i.mode, r⟩ w)
        else times N (N.fromI8 1) (p i w) := by
  obtain ⟨m, b⟩ := i
  have fin : ∀ (j : Input UInt8) (s : T), (do
      let q ← p j
      q.map (fun num => M.lift (N.mul s num)) : M σ _) w = times N s (p j w) := by
    intro j s
    rw [M.bind_apply]
    match p j w with
    | .ok (.data i n, w) => rfl
    | .ok (.error b e, w) => rfl
    | .ok (.incomplete n, w) => rfl
    | .panic => rfl
    | .ub => rfl
    | .div => rfl
  unfold signed Comb.option Parser.map
  cases b with
  | nil =>
    have e := Parsers.satisfy_eq (σ := σ) v (fun c : UInt8 => c == 45 || c == 43) ⟨m, []⟩ w
    simp only [bind_assoc]
    rw [M.bind_ok e]
    simp only [ParseResult.map, pure_bind]
    cases m
    · rfl
    · simp only [Input.isLastSlice, if_true, pure_bind, Input.ret, ParseResult.bind_data]
      exact fin _ _
  | cons c r =>
    have e := Parsers.satisfy_eq (σ := σ) v (fun c : UInt8 => c == 45 || c == 43) ⟨m, c :: r⟩ w
    simp only [bind_assoc]
    rw [M.bind_ok e]
    dsimp only
    by_cases h1 : c = 45
    · subst h1
      simp only [beq_self_eq_true, Bool.true_or, if_true, ParseResult.map, pure_bind, Input.ret,
        ParseResult.bind_data]
      exact fin _ _
    · by_cases h2 : c = 43
      · subst h2
        simp only [beq_self_eq_true, Bool.or_true, if_true, ParseResult.map, pure_bind, Input.ret,
          ParseResult.bind_data, h1, if_false]
        exact fin _ _
      · simp only [beq_iff_eq, h1, h2, if_false, ParseResult.map, pure_bind, Input.ret,
          ParseResult.bind_data, Bool.or_eq_true, or_self]
        exact fin _ _

/-! ### the printer -/

theorem printNat_digits (n : Nat) : ∀ c ∈ printNat n, isDigit c = true := by
  intro c hc
  obtain ⟨d, hd, rfl⟩ := List.mem_map.mp hc
  have := Nat.isDigit_of_mem_toDigits (by omega) (by omega) hd
  simp only [Char.isDigit, Bool.and_eq_true, decide_eq_true_eq] at this
  have h1 : 48 ≤ d.toNat := this.1
  have h2 : d.toNat ≤ 57 := this.2
  simp only [isDigit, byte, Bool.and_eq_true, decide_eq_true_eq, UInt8.le_iff_toNat_le,
    UInt8.toNat_ofNat']
  have e : d.toNat % 2 ^ 8 = d.toNat := by omega
  rw [e]
  exact ⟨h1, h2⟩

theorem printNat_ne_nil (n : Nat) : printNat n ≠ [] := by
  unfold printNat
  intro h
  exact Nat.toDigits_ne_nil (List.map_eq_nil_iff.mp h)

theorem value_printNat (n : Nat) : value (printNat n) = n := by
  have h := Nat.ofDigitChars_ten_toDigits (n := n)
  rw [Nat.ofDigitChars_eq_foldl] at h
  have hd : ∀ c ∈ Nat.toDigits 10 n, c.toNat % 256 = c.toNat := by
    intro c hc
    have := Nat.isDigit_of_mem_toDigits (by omega) (by omega) hc
    simp only [Char.isDigit, Bool.and_eq_true, decide_eq_true_eq] at this
    have h2 : c.toNat ≤ 57 := this.2
    omega
  have key : ∀ (l : List Char) (x : Nat), (∀ c ∈ l, c.toNat % 256 = c.toNat) →
      (l.map byte).foldl (fun a c => 10 * a + (c.toNat - 48)) x =
        l.foldl (fun s c => 10 * s + (c.toNat - '0'.toNat)) x := by
    intro l
    induction l with
    | nil => intro x _; rfl
    | cons c l ih =>
      intro x hl
      simp only [List.map_cons, List.foldl_cons]
      have : (byte c).toNat = c.toNat := by
        simp only [byte, UInt8.toNat_ofNat']
        exact hl c (by simp)
      rw [this, ih _ (fun d hd => hl d (by simp [hd]))]
      rfl
  unfold value printNat
  rw [key _ _ hd]
  exact h

end Chomp.Ascii
