import Verif.Lemmas.Ascii

/-
C38–C41: the ASCII module.
-/

namespace Chomp.Props

open Spec Ascii

/-! ### C38 -/

theorem forall_byte {P : UInt8 → Prop} (h : ∀ n : Fin 256, P (UInt8.ofFin n)) (c : UInt8) : P c := by
  have := h c.toFin
  simpa using this

/-- Each predicate holds for exactly the characters which its documentation lists. The
classification into letters and digits is compared with the one of Lean's `Char`. -/
theorem C38_classes (c : UInt8) :
    isDigit c = (Char.ofNat c.toNat).isDigit ∧
    isLowercase c = (Char.ofNat c.toNat).isLower ∧
    isUppercase c = (Char.ofNat c.toNat).isUpper ∧
    isAlpha c = (Char.ofNat c.toNat).isAlpha ∧
    isAlphanumeric c = (Char.ofNat c.toNat).isAlphanum := by
  revert c
  refine forall_byte ?_
  decide +kernel

/-- Whitespace: horizontal tab, line feed, vertical tab, form feed, carriage return, space. -/
theorem C38_space (c : UInt8) :
    (isWhitespace c ↔ c ∈ [0x09, 0x0a, 0x0b, 0x0c, 0x0d, byte ' ']) ∧
    (isHorizontalSpace c ↔ c ∈ [byte '\t', byte ' ']) ∧
    (isEndOfLine c ↔ c ∈ [byte '\n', byte '\r']) := by
  revert c
  refine forall_byte ?_
  decide +kernel

/-- What a user expects of the classes: bytes beyond ASCII are in none, horizontal space and line
ends are disjoint kinds of whitespace, no letter or digit is whitespace, alphanumeric is the disjoint
union of lower case, upper case and digits, and the two cases differ by 32. -/
theorem C38_relations (c : UInt8) :
    (128 ≤ c → isAlphanumeric c = false ∧ isWhitespace c = false) ∧
    (isHorizontalSpace c → isWhitespace c ∧ isEndOfLine c = false) ∧
    (isEndOfLine c → isWhitespace c) ∧
    (isWhitespace c → isAlphanumeric c = false) ∧
    (isAlphanumeric c ↔ isLowercase c ∨ isUppercase c ∨ isDigit c) ∧
    (isLowercase c → isUppercase c = false ∧ isDigit c = false) ∧
    (isUppercase c → isDigit c = false) ∧
    (isUppercase c ↔ c < 128 ∧ isLowercase (c + 32)) := by
  revert c
  refine forall_byte ?_
  decide +kernel

/-- `skip_whitespace` consumes exactly the leading whitespace. -/
theorem C38_skip_whitespace (m : Mode) (x r : List UInt8) (c : UInt8) (w : σ)
    (hx : ∀ a ∈ x, isWhitespace a) (hc : isWhitespace c = false) :
    skipWhitespace ⟨m, x ++ c :: r⟩ w = .ok (.data ⟨m, c :: r⟩ (), w) := by
  have h1 : (x ++ c :: r).takeWhile isWhitespace = x := by
    rw [List.takeWhile_append_of_pos hx]; simp [hc]
  have h2 : (x ++ c :: r).dropWhile isWhitespace = c :: r := by
    rw [List.dropWhile_append_of_pos hx]; simp [hc]
  unfold skipWhitespace Parser.map
  rw [M.bind_ok (Parsers.takeWhile_eq _ _ _)]
  rw [if_neg (by simp [hc])]
  rw [h2]
  rfl

/-- With nothing but whitespace: consumed at the end of the input, incomplete before. -/
theorem C38_skip_whitespace_all (x : List UInt8) (w : σ) (hx : ∀ a ∈ x, isWhitespace a) :
    skipWhitespace ⟨.endOfInput, x⟩ w = .ok (.data ⟨.endOfInput, []⟩ (), w) ∧
    skipWhitespace ⟨.default, x⟩ w = .ok (.incomplete 1, w) := by
  have h2 : x.dropWhile isWhitespace = [] := by
    have := List.dropWhile_append_of_pos (l₂ := []) hx
    simpa using this
  have h3 : x.all isWhitespace = true := by simpa using hx
  unfold skipWhitespace Parser.map
  constructor
  · rw [M.bind_ok (Parsers.takeWhile_eq _ _ _), if_neg (by simp), h2]; rfl
  · rw [M.bind_ok (Parsers.takeWhile_eq _ _ _), if_pos ⟨rfl, h3⟩]; rfl

/-- `digit` consumes one digit and yields its code. -/
theorem C38_digit (v : Bool) (m : Mode) (c : UInt8) (r : List UInt8) (w : σ) :
    (digit v ⟨m, c :: r⟩ w = .ok (.data ⟨m, r⟩ c, w) ↔ byte '0' ≤ c ∧ c ≤ byte '9') ∧
    (¬ (byte '0' ≤ c ∧ c ≤ byte '9') → digit v ⟨m, c :: r⟩ w =
      .ok (.error (c :: r) (if v then .unexpected else .generic), w)) ∧
    digit v ⟨m, []⟩ w = .ok (.incomplete 1, w) := by
  unfold digit
  rw [Parsers.satisfy_eq, Parsers.satisfy_eq]
  have h := isDigit_iff c
  dsimp only
  refine ⟨⟨fun e => ?_, fun e => ?_⟩, fun e => ?_, rfl⟩
  · apply h.mp
    cases hd : isDigit c with
    | true => rfl
    | false => rw [hd] at e; simp at e
  · rw [if_pos (h.mpr e)]
  · rw [if_neg (fun d => e (h.mp d))]
    rfl

example : skipWhitespace ⟨.default, [32, 9, 65, 32]⟩ () = .ok (.data ⟨.default, [65, 32]⟩ (), ()) :=
  C38_skip_whitespace .default [32, 9] [32] 65 () (by decide) (by decide)

/-! ### C39 -/

/-- If the value fits, it is what `decimal` yields. -/
theorem C39_value (v : Bool) (t : IntTy) (m : Mode) (ds rest : List UInt8) (w : σ)
    (h : DigitRun m ds rest) (hv : (value ds : Int) ≤ t.max) :
    decimal v t.num ⟨m, ds ++ rest⟩ w = .ok (.data ⟨m, rest⟩ (value ds : Int), w) := by
  rw [decimal_run h, toDecimal_eq]
  have : ds.foldlM (stepDec t.num) (t.num.fromU8 0) = .ok (value ds : Int) :=
    fold_fits ds 0 (fun c hc => (isDigit_iff c).mpr (h.2.1 c hc)) hv
  rw [this]; rfl

/-- If it does not, a build with overflow checks panics. -/
theorem C39_checked (v : Bool) (t : IntTy) (ht : HoldsU8 t) (hc : t.checked = true) (m : Mode)
    (ds rest : List UInt8) (w : σ) (h : DigitRun m ds rest) (hv : t.max < (value ds : Int)) :
    decimal v t.num ⟨m, ds ++ rest⟩ w = .panic := by
  rw [decimal_run h, toDecimal_eq]
  have := max_ge ht
  have : ds.foldlM (stepDec t.num) (t.num.fromU8 0) = .panic :=
    fold_panics hc ds 0 (fun c hc => (isDigit_iff c).mpr (h.2.1 c hc)) (by simp; omega) hv
  rw [this]; rfl

/-- A build without yields the value modulo `2^bits`, as represented in the type. -/
theorem C39_wrapping (v : Bool) (t : IntTy) (ht : HoldsU8 t) (hc : t.checked = false) (m : Mode)
    (ds rest : List UInt8) (w : σ) (h : DigitRun m ds rest) :
    ∃ x, decimal v t.num ⟨m, ds ++ rest⟩ w = .ok (.data ⟨m, rest⟩ x, w) ∧ Wraps t (value ds) x := by
  rw [decimal_run h, toDecimal_eq]
  have hm := max_ge ht
  have hmin := min_le t
  obtain ⟨z, hz, hw⟩ := fold_wraps hc (holds_bits ht) ds 0 (t.num.fromU8 0)
    (fun c hc => (isDigit_iff c).mpr (h.2.1 c hc)) (Wraps.refl ⟨hmin, by simp; omega⟩)
  rw [hz]
  exact ⟨z, rfl, hw⟩

/-- That representation is unique. -/
theorem C39_wraps_unique (t : IntTy) (ht : HoldsU8 t) (z x y : Int) (hx : Wraps t z x)
    (hy : Wraps t z y) : x = y := wraps_unique (holds_bits ht) hx hy

/-- A run of digits which may go on is incomplete, as is the empty slice. -/
theorem C39_incomplete (v : Bool) (N : Num T) (ds : List UInt8) (w : σ)
    (h : ∀ c ∈ ds, byte '0' ≤ c ∧ c ≤ byte '9') :
    decimal v N ⟨.default, ds⟩ w = .ok (.incomplete 1, w) ∧
    decimal v N ⟨.endOfInput, []⟩ w = .ok (.incomplete 1, w) := by
  have h3 : ds.all isDigit = true := by
    simp only [List.all_eq_true]
    exact fun c hc => (isDigit_iff c).mpr (h c hc)
  unfold decimal Parser.bind
  constructor
  · rw [M.bind_ok (Parsers.takeWhile1_eq _ _ _ _)]
    cases ds with
    | nil => rfl
    | cons c r =>
      have hc : isDigit c = true := (isDigit_iff c).mpr (h c (by simp))
      dsimp only
      rw [if_neg (by simp [hc]), if_pos ⟨rfl, h3⟩]
      rfl
  · rw [M.bind_ok (Parsers.takeWhile1_eq _ _ _ _)]
    rfl

/-- A leading non-digit is an error in place. -/
theorem C39_error (v : Bool) (N : Num T) (m : Mode) (c : UInt8) (r : List UInt8) (w : σ)
    (h : ¬ (byte '0' ≤ c ∧ c ≤ byte '9')) :
    decimal v N ⟨m, c :: r⟩ w = .ok (.error (c :: r) (if v then .unexpected else .generic), w) := by
  have hc : isDigit c = false := by
    cases hd : isDigit c with
    | false => rfl
    | true => exact absurd ((isDigit_iff c).mp hd) h
  unfold decimal Parser.bind
  rw [M.bind_ok (Parsers.takeWhile1_eq _ _ _ _)]
  dsimp only
  rw [if_pos hc]
  rfl

/-- i16, with overflow checks -/
def i16c : IntTy := ⟨16, true, true⟩
/-- u8, without overflow checks -/
def u8w : IntTy := ⟨8, false, false⟩

example : decimal true i16c.num ⟨.default, [48, 49, 50, 51, 32]⟩ () =
    .ok (.data ⟨.default, [32]⟩ 123, ()) :=
  C39_value true i16c .default [48, 49, 50, 51] [32] () ⟨by decide, by decide, by decide⟩ (by decide)

example : decimal true i16c.num ⟨.endOfInput, [51, 50, 55, 54, 56]⟩ () = .panic :=
  C39_checked true i16c (by decide) rfl .endOfInput [51, 50, 55, 54, 56] [] ()
    ⟨by decide, by decide, rfl⟩ (by decide)

/-- "258" as `u8` is 2. -/
example : decimal true u8w.num ⟨.endOfInput, [50, 53, 56]⟩ () = .ok (.data ⟨.endOfInput, []⟩ 2, ()) := by
  obtain ⟨x, hx, hw⟩ := C39_wrapping (σ := Unit) true u8w (by decide) rfl .endOfInput [50, 53, 56] []
    () ⟨by decide, by decide, rfl⟩
  have : x = 2 := C39_wraps_unique u8w (by decide) _ _ _ hw ⟨by decide, by decide, -1, by decide⟩
  rw [← this]; exact hx

/-! ### C40 -/

theorem print_run {m : Mode} {rest : List UInt8} (n : Nat) (h : Ends m rest) :
    DigitRun m (printNat n) rest :=
  ⟨printNat_ne_nil n, fun c hc => (isDigit_iff c).mp (printNat_digits n c hc), h⟩

/-- Any natural number which the type holds is read back as printed. -/
theorem C40_decimal (v : Bool) (t : IntTy) (m : Mode) (n : Nat) (rest : List UInt8) (w : σ)
    (hn : (n : Int) ≤ t.max) (h : Ends m rest) :
    decimal v t.num ⟨m, printNat n ++ rest⟩ w = .ok (.data ⟨m, rest⟩ (n : Int), w) := by
  have := C39_value v t m (printNat n) rest w (print_run n h) (by rw [value_printNat]; exact hn)
  rwa [value_printNat] at this

theorem times_ok (N : Num T) (s n x : T) (i : Input UInt8) (w : σ) (h : N.mul s n = .ok x) :
    times N s (.ok (.data i n, w)) = .ok (.data i x, w) := by
  simp only [times, h]; rfl

theorem times_panic (N : Num T) (s n : T) (i : Input UInt8) (w : σ) (h : N.mul s n = .panic) :
    times N s (.ok (.data i n, w)) = .panic := by
  simp only [times, h]; rfl

theorem digit_ne (c : UInt8) (h : isDigit c = true) : c ≠ 45 ∧ c ≠ 43 := by
  constructor <;> (rintro rfl; revert h; decide)

/-- `signed` in front of a digit applies the parser and multiplies by one. -/
theorem signed_plain (v : Bool) (N : Num T) (p : Parser σ UInt8 T (Error UInt8)) (m : Mode)
    (n : Nat) (rest : List UInt8) (w : σ) :
    signed v N p ⟨m, printNat n ++ rest⟩ w =
      times N (N.fromI8 1) (p ⟨m, printNat n ++ rest⟩ w) := by
  rw [signed_eq]
  have h0 := printNat_ne_nil n
  have hd := printNat_digits n
  cases hp : printNat n with
  | nil => exact absurd hp h0
  | cons c r =>
    rw [hp] at hd
    have := digit_ne c (hd c (by simp))
    dsimp only [List.cons_append]
    rw [if_neg this.1, if_neg this.2]

/-- Any integer which a signed type holds, except the most negative one, is read back as printed. -/
theorem C40_signed (v : Bool) (t : IntTy) (hs : t.signed = true) (m : Mode) (z : Int)
    (rest : List UInt8) (w : σ) (hz : t.min < z ∧ z ≤ t.max) (h : Ends m rest) :
    signed v t.num (decimal v t.num) ⟨m, printInt z ++ rest⟩ w = .ok (.data ⟨m, rest⟩ z, w) := by
  have hmm : t.min = -(t.max + 1) := by simp only [IntTy.min, IntTy.max, hs, if_true]; omega
  unfold printInt
  split
  · rename_i hneg
    rw [signed_eq]
    have e : byte '-' = 45 := rfl
    dsimp only [List.cons_append]
    rw [if_pos e, C40_decimal v t m z.natAbs rest w (by omega) h]
    apply times_ok
    have : t.norm (-1 * (z.natAbs : Int)) = .ok (-1 * (z.natAbs : Int)) :=
      norm_fits ⟨by omega, by omega⟩
    exact this.trans (congrArg _ (by omega))
  · rw [signed_plain, C40_decimal v t m z.natAbs rest w (by omega) h]
    apply times_ok
    have : t.norm (1 * (z.natAbs : Int)) = .ok (1 * (z.natAbs : Int)) :=
      norm_fits ⟨by omega, by omega⟩
    exact this.trans (congrArg _ (by omega))

/-- A '+' in front changes nothing. -/
theorem C40_plus (v : Bool) (t : IntTy) (m : Mode) (n : Nat)
    (rest : List UInt8) (w : σ) (hn : (n : Int) ≤ t.max) (h : Ends m rest) :
    signed v t.num (decimal v t.num) ⟨m, byte '+' :: printNat n ++ rest⟩ w =
      .ok (.data ⟨m, rest⟩ (n : Int), w) := by
  rw [signed_eq]
  dsimp only [List.cons_append]
  have hmin := min_le t
  rw [if_neg (by decide), if_pos (by decide), C40_decimal v t m n rest w hn h]
  apply times_ok
  have : t.norm (1 * (n : Int)) = .ok (1 * (n : Int)) := norm_fits ⟨by omega, by omega⟩
  exact this.trans (congrArg _ (by omega))

/-- Errors: a sign is consumed even if no number follows, so that the error is reported behind it;
without a sign and without a digit it is reported in place. -/
theorem C40_error (v : Bool) (N : Num T) (m : Mode) (c : UInt8) (r : List UInt8) (w : σ)
    (h : ¬ (byte '0' ≤ c ∧ c ≤ byte '9')) :
    (∀ s, s = byte '-' ∨ s = byte '+' → signed v N (decimal v N) ⟨m, s :: c :: r⟩ w =
      .ok (.error (c :: r) (if v then .unexpected else .generic), w)) ∧
    (c ≠ byte '-' → c ≠ byte '+' → signed v N (decimal v N) ⟨m, c :: r⟩ w =
      .ok (.error (c :: r) (if v then .unexpected else .generic), w)) := by
  refine ⟨fun s hs => ?_, fun h1 h2 => ?_⟩
  · rw [signed_eq]
    dsimp only
    rcases hs with rfl | rfl
    · rw [if_pos (by decide), C39_error v N m c r w h]; rfl
    · rw [if_neg (by decide), if_pos (by decide), C39_error v N m c r w h]; rfl
  · rw [signed_eq]
    dsimp only
    rw [if_neg (show ¬ c = 45 from h1), if_neg (show ¬ c = 43 from h2), C39_error v N m c r w h]; rfl

/-- A sign with nothing behind it is incomplete, as is the empty slice. -/
theorem C40_incomplete (v : Bool) (N : Num T) (m : Mode) (w : σ) :
    signed v N (decimal v N) ⟨m, []⟩ w = .ok (.incomplete 1, w) ∧
    (∀ s, s = byte '-' ∨ s = byte '+' →
      signed v N (decimal v N) ⟨m, [s]⟩ w = .ok (.incomplete 1, w)) := by
  have h : decimal v N ⟨m, []⟩ w = .ok (.incomplete 1, w) := by
    cases m
    · exact (C39_incomplete v N [] w (by simp)).1
    · exact (C39_incomplete v N [] w (by simp)).2
  refine ⟨?_, fun s hs => ?_⟩
  · rw [signed_eq]
    dsimp only
    rw [h]
    split <;> rfl
  · rw [signed_eq]
    dsimp only
    rw [h]
    split
    · rfl
    · split
      · rfl
      · rename_i h1 h2
        rcases hs with rfl | rfl
        · exact absurd rfl h1
        · exact absurd rfl h2

/-- `signed` of any parser: what it is applied to, and the factor. -/
theorem C40_any_parser (v : Bool) (t : IntTy) (p : Parser σ UInt8 Int (Error UInt8)) (m : Mode)
    (b : List UInt8) (i' : Input UInt8) (n : Int) (w w' : σ)
    (h : p ⟨m, b⟩ w = .ok (.data i' n, w')) (hn : t.min ≤ n ∧ n ≤ t.max)
    (hn' : t.min ≤ -n ∧ -n ≤ t.max) :
    signed v t.num p ⟨m, byte '-' :: b⟩ w = .ok (.data i' (-n), w') ∧
    signed v t.num p ⟨m, byte '+' :: b⟩ w = .ok (.data i' n, w') := by
  constructor
  · rw [signed_eq]
    dsimp only
    rw [if_pos (by decide), h]
    apply times_ok
    have : t.norm (-1 * n) = .ok (-1 * n) := norm_fits ⟨by omega, by omega⟩
    exact this.trans (congrArg _ (by omega))
  · rw [signed_eq]
    dsimp only
    rw [if_neg (by decide), if_pos (by decide), h]
    apply times_ok
    have : t.norm (1 * n) = .ok (1 * n) := norm_fits ⟨by omega, by omega⟩
    exact this.trans (congrArg _ (by omega))

example : signed true i16c.num (decimal true i16c.num) ⟨.default, printInt (-32767) ++ [32]⟩ () =
    .ok (.data ⟨.default, [32]⟩ (-32767), ()) :=
  C40_signed true i16c rfl .default (-32767) [32] () (by decide) (by decide)

example : printInt (-123) = [45, 49, 50, 51] := by decide

/-! ### C41 -/

/-- The most negative value is printed as '-' and a number just too large. -/
theorem print_min (t : IntTy) (hs : t.signed = true) :
    printInt t.min = byte '-' :: printNat (2 ^ (t.bits - 1)) := by
  have hp := pow_pos' (t.bits - 1)
  have e : t.min = -(2 ^ (t.bits - 1)) := by simp only [IntTy.min, hs, if_true]
  unfold printInt
  rw [e, if_pos (by omega)]
  congr 2
  rw [Int.natAbs_neg, Int.natAbs_pow]
  rfl

/-- In a build with overflow checks, `signed(decimal)` panics on the most negative value. -/
theorem C41_checked (v : Bool) (t : IntTy) (ht : HoldsU8 t) (hs : t.signed = true)
    (hc : t.checked = true) (m : Mode) (rest : List UInt8) (w : σ) (h : Ends m rest) :
    signed v t.num (decimal v t.num) ⟨m, printInt t.min ++ rest⟩ w = .panic := by
  rw [print_min t hs, signed_eq]
  dsimp only [List.cons_append]
  rw [if_pos (by decide)]
  have := C39_checked v t ht hc m (printNat (2 ^ (t.bits - 1))) rest w (print_run _ h) (by
    rw [value_printNat]
    simp only [IntTy.max, hs, if_true]
    have : ((2 ^ (t.bits - 1) : Nat) : Int) = 2 ^ (t.bits - 1) := by simp
    omega)
  rw [this]; rfl

/-- In a build without, the value is read back. -/
theorem C41_wrapping (v : Bool) (t : IntTy) (ht : HoldsU8 t) (hs : t.signed = true)
    (hc : t.checked = false) (m : Mode) (rest : List UInt8) (w : σ) (h : Ends m rest) :
    signed v t.num (decimal v t.num) ⟨m, printInt t.min ++ rest⟩ w =
      .ok (.data ⟨m, rest⟩ t.min, w) := by
  rw [print_min t hs, signed_eq]
  dsimp only [List.cons_append]
  rw [if_pos (by decide)]
  obtain ⟨x, hx, hw⟩ := C39_wrapping v t ht hc m (printNat (2 ^ (t.bits - 1))) rest w (print_run _ h)
  rw [hx]
  obtain ⟨y, hy, hwy⟩ := norm_wraps hc (holds_bits ht) (-1 * x)
  rw [value_printNat] at hw
  have e : y = t.min := by
    refine wraps_unique (holds_bits ht) (hw.neg hwy) ?_
    have e : t.min = -(2 ^ (t.bits - 1)) := by simp only [IntTy.min, hs, if_true]
    have := min_le t
    have := max_ge ht
    exact ⟨by omega, by omega, 0, by rw [e]; simp⟩
  rw [times_ok _ _ _ _ _ _ (show t.num.mul (t.num.fromI8 (-1)) x = .ok y from hy), e]

/-- Neither checked nor wrapping makes a difference anywhere else: the value panics exactly when
the digits exceed the largest value. -/
theorem C41_exact (v : Bool) (t : IntTy) (ht : HoldsU8 t) (hs : t.signed = true)
    (hc : t.checked = true) (m : Mode) (n : Nat) (rest : List UInt8) (w : σ) (h : Ends m rest) :
    signed v t.num (decimal v t.num) ⟨m, byte '-' :: printNat n ++ rest⟩ w = .panic ↔
      t.max < (n : Int) := by
  constructor
  · intro hp
    apply Int.not_le.mp
    intro hn
    have hmm : t.min = -(t.max + 1) := by simp only [IntTy.min, IntTy.max, hs, if_true]; omega
    have := (C40_any_parser v t (decimal v t.num) m (printNat n ++ rest) ⟨m, rest⟩ n w w
      (C40_decimal v t m n rest w hn h) ⟨by omega, by omega⟩ ⟨by omega, by omega⟩).1
    rw [List.cons_append, this] at hp
    cases hp
  · intro hn
    rw [signed_eq]
    dsimp only [List.cons_append]
    rw [if_pos (by decide)]
    have := C39_checked v t ht hc m (printNat n) rest w (print_run _ h) (by rwa [value_printNat])
    rw [this]; rfl

example : signed true i16c.num (decimal true i16c.num) ⟨.endOfInput, printInt (-32768)⟩ () = .panic := by
  have := C41_checked (σ := Unit) true i16c (by decide) rfl rfl .endOfInput [] () rfl
  rw [List.append_nil] at this
  exact this

example : signed true (⟨64, true, false⟩ : IntTy).num (decimal true (⟨64, true, false⟩ : IntTy).num)
    ⟨.default, printInt (-9223372036854775808) ++ [10]⟩ () =
      .ok (.data ⟨.default, [10]⟩ (-9223372036854775808), ()) :=
  C41_wrapping true ⟨64, true, false⟩ (by decide) rfl rfl .default [10] () (by decide)

end Chomp.Props
