import Verif.Lemmas.Float
import Verif.Props.Ascii

/-
C99: reading digits into floating point numbers.
-/

namespace Chomp.Props

open Spec Ascii

/-! ### C99 -/

/-- The rounding of the model is that of IEEE 754, and there is only one. -/
theorem C99_round (p : Nat) (hp : 2 ≤ p) (n x : Nat) : Nearest p n x ↔ x = roundNat p n :=
  ⟨nearest_unique hp, fun h => h ▸ roundNat_nearest hp n⟩

/-- `decimal` into a floating point type never panics and never fails on digits. It consumes all of them.
The result is a number of the precision of the type, which is infinite if it is too large. If the digits are
`pre ++ suf` and `pre` is not above `2 ^ prec`, it is off by at most `4 * suf.length` in `2 ^ prec`. -/
theorem C99_decimal (v : Bool) (t : FloatTy) (hp : 2 ≤ t.prec) (m : Mode) (ds rest : List UInt8) (w : σ)
    (h : DigitRun m ds rest) :
    ∃ x, decimal v t.num ⟨m, ds ++ rest⟩ w = .ok (.data ⟨m, rest⟩ (Capped t false x), w) ∧
      Representable t.prec x ∧
      ∀ pre suf, ds = pre ++ suf → value pre ≤ 2 ^ t.prec → 4 * suf.length ≤ 2 ^ t.prec →
        2 ^ t.prec * dist x (value ds) ≤ 4 * suf.length * value ds := by
  refine ⟨readFl t.prec ds, ?_, readFl_representable hp ds, fun pre suf he h1 h2 => ?_⟩
  · rw [decimal_run h, toDecimal_float hp (fun c hc => (isDigit_iff c).mpr (h.2.1 c hc))]
    rfl
  · subst he
    exact readFl_error hp pre suf h1 h2

/-- Integers up to `2 ^ prec`, which is 2^24 for `f32` and 2^53 for `f64`, are read exactly. -/
theorem C99_exact (v : Bool) (t : FloatTy) (hp : 2 ≤ t.prec) (ht : t.prec < t.top) (m : Mode)
    (ds rest : List UInt8) (w : σ) (h : DigitRun m ds rest) (hv : value ds ≤ 2 ^ t.prec) :
    decimal v t.num ⟨m, ds ++ rest⟩ w = .ok (.data ⟨m, rest⟩ (.fin false (value ds)), w) := by
  obtain ⟨x, h1, _, h3⟩ := C99_decimal v t hp m ds rest w h
  have hd := h3 ds [] (List.append_nil ds).symm hv (Nat.zero_le _)
  have hx : x = value ds := by
    have hpos : 0 < 2 ^ t.prec := Nat.pow_pos (by omega)
    have : dist x (value ds) = 0 := by
      rcases Nat.eq_zero_or_pos (dist x (value ds)) with h0 | h0
      · exact h0
      · have := Nat.mul_pos hpos h0
        rw [List.length_nil, Nat.mul_zero, Nat.zero_mul] at hd
        omega
    exact dist_zero.mp this
  rw [h1, hx, show Capped t false (value ds) = .fin false (value ds) from
    if_pos (Nat.lt_of_le_of_lt hv (Nat.pow_lt_pow_right (by omega) ht))]

/-- So they are read back as printed. -/
theorem C99_print (v : Bool) (t : FloatTy) (hp : 2 ≤ t.prec) (ht : t.prec < t.top) (m : Mode) (n : Nat)
    (rest : List UInt8) (w : σ) (h : Ends m rest) (hn : n ≤ 2 ^ t.prec) :
    decimal v t.num ⟨m, printNat n ++ rest⟩ w = .ok (.data ⟨m, rest⟩ (.fin false n), w) := by
  have := C99_exact v t hp ht m (printNat n) rest w (print_run n h) (by rw [value_printNat]; exact hn)
  rwa [value_printNat] at this

/-- The ranges. An integer up to 3.40 * 10^38 is a finite `f32` and one from 3.41 * 10^38 is infinite. For
`f64` these are 1.7976 * 10^308 and 1.7977 * 10^308. -/
theorem C99_range (v : Bool) (m : Mode) (ds rest : List UInt8) (w : σ) (h : DigitRun m ds rest) :
    (value ds ≤ 340 * 10 ^ 36 →
      ∃ x, decimal v f32.num ⟨m, ds ++ rest⟩ w = .ok (.data ⟨m, rest⟩ (.fin false x), w)) ∧
    (341 * 10 ^ 36 ≤ value ds →
      decimal v f32.num ⟨m, ds ++ rest⟩ w = .ok (.data ⟨m, rest⟩ (.inf false), w)) ∧
    (value ds ≤ 17976 * 10 ^ 304 →
      ∃ x, decimal v f64.num ⟨m, ds ++ rest⟩ w = .ok (.data ⟨m, rest⟩ (.fin false x), w)) ∧
    (17977 * 10 ^ 304 ≤ value ds →
      decimal v f64.num ⟨m, ds ++ rest⟩ w = .ok (.data ⟨m, rest⟩ (.inf false), w)) := by
  have hd : ∀ c ∈ ds, isDigit c := fun c hc => (isDigit_iff c).mpr (h.2.1 c hc)
  have hc : ∀ c ∈ ds, c.toNat ≤ 57 := fun c hc => (digit_range (hd c hc)).2
  have hrun : ∀ t : FloatTy, 2 ≤ t.prec → decimal v t.num ⟨m, ds ++ rest⟩ w =
      .ok (.data ⟨m, rest⟩ (Capped t false (readFl t.prec ds)), w) := by
    intro t hp
    rw [decimal_run h, toDecimal_float hp hd]
    rfl
  refine ⟨fun hv => ⟨readFl f32.prec ds, ?_⟩, fun hv => ?_, fun hv => ⟨readFl f64.prec ds, ?_⟩, fun hv => ?_⟩
  · rw [hrun f32 (by decide), show Capped f32 false _ = _ from if_pos (readFl_lt (K := 33) (p := f32.prec)
      (by decide) (by decide +kernel) (by decide +kernel) (by decide +kernel) ds hv)]
  · rw [hrun f32 (by decide), show Capped f32 false _ = _ from if_neg (Nat.not_lt.mpr (le_readFl (K := 33)
      (p := f32.prec) (by decide) (by decide +kernel) (by decide +kernel) (by decide +kernel)
      (by decide +kernel) ds hc hv))]
  · rw [hrun f64 (by decide), show Capped f64 false _ = _ from if_pos (readFl_lt (K := 294) (p := f64.prec)
      (by decide) (by decide +kernel) (by decide +kernel) (by decide +kernel) ds hv)]
  · rw [hrun f64 (by decide), show Capped f64 false _ = _ from if_neg (Nat.not_lt.mpr (le_readFl (K := 294)
      (p := f64.prec) (by decide) (by decide +kernel) (by decide +kernel) (by decide +kernel)
      (by decide +kernel) ds hc hv))]

/-- `signed` changes nothing but the sign, also that of zero and of infinity. -/
theorem C99_signed (v : Bool) (t : FloatTy) (hp : 2 ≤ t.prec) (m : Mode) (ds rest : List UInt8) (w : σ)
    (h : DigitRun m ds rest) :
    ∃ x, decimal v t.num ⟨m, ds ++ rest⟩ w = .ok (.data ⟨m, rest⟩ x, w) ∧
      signed v t.num (decimal v t.num) ⟨m, ds ++ rest⟩ w = .ok (.data ⟨m, rest⟩ x, w) ∧
      signed v t.num (decimal v t.num) ⟨m, byte '+' :: (ds ++ rest)⟩ w = .ok (.data ⟨m, rest⟩ x, w) ∧
      signed v t.num (decimal v t.num) ⟨m, byte '-' :: (ds ++ rest)⟩ w =
        .ok (.data ⟨m, rest⟩ (negate x), w) := by
  obtain ⟨x, h1, h2, _⟩ := C99_decimal v t hp m ds rest w h
  have hr := roundNat_representable hp h2
  have hmul : ∀ a, t.mul (.fin a 1) (Capped t false x) = Capped t a x := by
    intro a
    unfold Capped
    split
    · rename_i hlt
      show t.norm (a != false) (1 * x) = _
      rw [Nat.one_mul, norm_capped, hr, Bool.bne_false]
      exact if_pos hlt
    · show Fl.inf (a != false) = _
      rw [Bool.bne_false]
  have h1' : t.num.mul (t.num.fromI8 1) (Capped t false x) = .ok (Capped t false x) :=
    congrArg Res.ok (hmul false)
  have h2' : t.num.mul (t.num.fromI8 (-1)) (Capped t false x) = .ok (Capped t true x) :=
    congrArg Res.ok (hmul true)
  have hneg : negate (Capped t false x) = Capped t true x := by
    unfold Capped; split <;> rfl
  refine ⟨_, h1, ?_, ?_, ?_⟩
  · rw [signed_eq]
    match ds, h with
    | c :: cs, h =>
      have hc := digit_range ((isDigit_iff c).mpr (h.2.1 c List.mem_cons_self))
      dsimp only [List.cons_append]
      rw [if_neg (fun e => by subst e; exact absurd hc.1 (by decide)),
        if_neg (fun e => by subst e; exact absurd hc.1 (by decide))]
      rw [List.cons_append] at h1
      rw [h1]
      exact times_ok _ _ _ _ _ _ h1'
  · rw [signed_eq]
    show times _ _ (decimal v t.num ⟨m, ds ++ rest⟩ w) = _
    rw [h1]
    exact times_ok _ _ _ _ _ _ h1'
  · rw [signed_eq, hneg]
    show times _ _ (decimal v t.num ⟨m, ds ++ rest⟩ w) = _
    rw [h1]
    exact times_ok _ _ _ _ _ _ h2'

/-- Larger integers are not all read exactly, not even those which the type has: 186731152 is an `f32` and
is read as 186731168, and 29444460717499452 is an `f64` and is read as 29444460717499448. -/
theorem C99_inexact (v : Bool) (m : Mode) (rest : List UInt8) (w : σ) (h : Ends m rest) :
    Representable f32.prec 186731152 ∧
    decimal v f32.num ⟨m, printNat 186731152 ++ rest⟩ w =
      .ok (.data ⟨m, rest⟩ (.fin false 186731168), w) ∧
    Representable f64.prec 29444460717499452 ∧
    decimal v f64.num ⟨m, printNat 29444460717499452 ++ rest⟩ w =
      .ok (.data ⟨m, rest⟩ (.fin false 29444460717499448), w) := by
  refine ⟨⟨11670697, 4, by decide, by decide⟩, ?_, ⟨7361115179374863, 2, by decide, by decide⟩, ?_⟩
  · rw [decimal_run (print_run _ h), toDecimal_float (by decide) (printNat_digits _),
      show Capped f32 false (readFl f32.prec (printNat 186731152)) = .fin false 186731168 by decide +kernel]
    rfl
  · rw [decimal_run (print_run _ h), toDecimal_float (by decide) (printNat_digits _),
      show Capped f64 false (readFl f64.prec (printNat 29444460717499452)) = .fin false 29444460717499448
        by decide +kernel]
    rfl

/-- And not in order: 167772169 is read as a larger `f32` than 167772170. -/
theorem C99_order (v : Bool) (m : Mode) (rest : List UInt8) (w : σ) (h : Ends m rest) :
    decimal v f32.num ⟨m, printNat 167772169 ++ rest⟩ w =
      .ok (.data ⟨m, rest⟩ (.fin false 167772176), w) ∧
    decimal v f32.num ⟨m, printNat 167772170 ++ rest⟩ w =
      .ok (.data ⟨m, rest⟩ (.fin false 167772160), w) := by
  constructor
  · rw [decimal_run (print_run _ h), toDecimal_float (by decide) (printNat_digits _),
      show Capped f32 false (readFl f32.prec (printNat 167772169)) = .fin false 167772176 by decide +kernel]
    rfl
  · rw [decimal_run (print_run _ h), toDecimal_float (by decide) (printNat_digits _),
      show Capped f32 false (readFl f32.prec (printNat 167772170)) = .fin false 167772160 by decide +kernel]
    rfl

/-! ### Concrete cases -/

namespace FloatExample

/-- C99: 16777216 is 2^24, the largest number up to which `f32` has all integers. -/
example : decimal true f32.num ⟨.endOfInput, "16777216".toList.map byte⟩ () =
    .ok (.data ⟨.endOfInput, []⟩ (.fin false 16777216), ()) :=
  C99_exact true f32 (by decide) (by decide) .endOfInput ("16777216".toList.map byte) [] ()
    ⟨by decide, by decide, rfl⟩ (by decide)

/-- C99: the next is read as the same, so it is off by one, which is within the bound: one digit follows
1677721. -/
example : ∃ x, decimal true f32.num ⟨.endOfInput, "16777217".toList.map byte⟩ () =
    .ok (.data ⟨.endOfInput, []⟩ (Capped f32 false x), ()) ∧ 2 ^ 24 * dist x 16777217 ≤ 4 * 1 * 16777217 := by
  obtain ⟨x, h1, _, h2⟩ := C99_decimal true f32 (by decide) .endOfInput ("16777217".toList.map byte) [] ()
    ⟨by decide, by decide, rfl⟩
  exact ⟨x, h1, h2 ("1677721".toList.map byte) [55] rfl (by decide) (by decide)⟩

/-- C99: a negative zero. -/
example : signed true f32.num (decimal true f32.num) ⟨.endOfInput, [byte '-', byte '0']⟩ () =
    .ok (.data ⟨.endOfInput, []⟩ (.fin true 0), ()) := by
  obtain ⟨x, h1, _, _, h2⟩ := C99_signed true f32 (by decide) .endOfInput [byte '0'] [] ()
    ⟨by decide, by decide, rfl⟩
  have h3 := C99_exact true f32 (by decide) (by decide) .endOfInput [byte '0'] [] ()
    ⟨by decide, by decide, rfl⟩ (by decide)
  rw [h3] at h1
  injection h1 with h1
  injection h1 with h1 _
  injection h1 with _ h1
  rw [← h1] at h2
  exact h2

/-- C99: 2^24 + 1 is between two `f32`, and the even one is taken; 2^24 + 3 likewise. -/
example : Nearest 24 (2 ^ 24 + 1) (2 ^ 24) ∧ Nearest 24 (2 ^ 24 + 3) (2 ^ 24 + 4) :=
  ⟨(C99_round 24 (by decide) _ _).mpr (by decide), (C99_round 24 (by decide) _ _).mpr (by decide)⟩

/-- C99: forty digits are too many for an `f32` and not for an `f64`. -/
example (m : Mode) (rest : List UInt8) (h : Ends m rest) :
    decimal true f32.num ⟨m, List.replicate 40 57 ++ rest⟩ () = .ok (.data ⟨m, rest⟩ (.inf false), ()) ∧
    ∃ x, decimal true f64.num ⟨m, List.replicate 40 57 ++ rest⟩ () = .ok (.data ⟨m, rest⟩ (.fin false x), ()) :=
  have h := C99_range true m (List.replicate 40 57) rest () ⟨by decide, by decide, h⟩
  ⟨h.2.1 (by decide +kernel), h.2.2.1 (by decide +kernel)⟩

end FloatExample

end Chomp.Props
