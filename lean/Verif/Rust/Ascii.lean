import Verif.Rust.Parsers
import Verif.Rust.Results
import Verif.Lemmas.Numeric
import Verif.Lemmas.Closures

/-
The texts of the functions of /repo/src/ascii.rs do what their models say.
-/

namespace Chomp.Rust

variable {σ Y : Type}

/-- The items are bytes, with the operations of `u8`. -/
structure Bytes (W : World σ UInt8 Y) : Prop where
  byte : ∀ n, W.byte n = UInt8.ofNat n
  le : ∀ a b, W.le a b = decide (a ≤ b)
  eq : ∀ a b, W.eq a b = pure (a == b)
  sub : ∀ a b, W.sub a b = if b ≤ a then .ok (a - b) else .panic

/-- The numbers are those of `N`. -/
structure NumbersBy (W : World σ UInt8 Y) (t : T → Y) (N : Numeric.Ops σ T) : Prop where
  fromU8 : ∀ b, W.fromU8 b = (do let c ← N.fromU8 b; pure (t c))
  fromI8 : ∀ x, W.fromI8 x = (do let c ← N.fromI8 x; pure (t c))
  add : ∀ a b, W.add (t a) (t b) = (do let c ← N.add a b; pure (t c))
  mul : ∀ a b, W.mul (t a) (t b) = (do let c ← N.mul a b; pure (t c))

/-- The same for operations without effects. -/
structure Numbers (W : World σ UInt8 Y) (t : T → Y) (N : Ascii.Num T) : Prop where
  fromU8 : ∀ b, W.fromU8 b = pure (t (N.fromU8 b))
  fromI8 : ∀ x, W.fromI8 x = pure (t (N.fromI8 x))
  add : ∀ a b, W.add (t a) (t b) = (do let c ← M.lift (N.add a b); pure (t c))
  mul : ∀ a b, W.mul (t a) (t b) = (do let c ← M.lift (N.mul a b); pure (t c))

theorem Numbers.by {W : World σ UInt8 Y} {t : T → Y} {N : Ascii.Num T} (h : Numbers W t N) :
    NumbersBy W t (Numeric.ofNum N) :=
  ⟨fun b => by rw [h.fromU8]; rfl, fun b => by rw [h.fromI8]; rfl, h.add, h.mul⟩

variable [Build] (W : World σ UInt8 Y)

attribute [local simp] apply eval evals evalArms callStd callMethod_eq receiver matchPats matchPat scope find Val.field
  index constant binop stdByMut stdCall optV indexSlice ofMode ofOption

attribute [-simp] bind_pure_comp

/-- `f` behaves like the pure predicate `g`. -/
abbrev IsTest (f : Val UInt8 Y) (g : UInt8 → Bool) : Prop := IsPred W f (fun c => pure (g c))

omit [Build] in
@[simp] theorem lift_bind (x : Res α) (f : α → Res β) :
    (M.lift (x >>= f) : M σ β) = M.lift x >>= fun a => M.lift (f a) := by
  funext w
  cases x <;> rfl

omit [Build] in
@[simp] theorem lift_pure (a : α) : (M.lift (pure a) : M σ α) = pure a := rfl
omit [Build] in
@[simp] theorem lift_ok (a : α) : (M.lift (.ok a) : M σ α) = pure a := rfl

section
variable (hW : Bytes W)
include hW

theorem is_lowercase (c : UInt8) :
    callFn W Text.is_lowercase [.item c] = pure (.bool (Ascii.isLowercase c)) := by
  rw [callFn]
  simp [Text.is_lowercase, hW.byte, hW.le, Ascii.isLowercase]
  by_cases h : (97 : UInt8) ≤ c <;> simp [h]

theorem is_uppercase (c : UInt8) :
    callFn W Text.is_uppercase [.item c] = pure (.bool (Ascii.isUppercase c)) := by
  rw [callFn]
  simp [Text.is_uppercase, hW.byte, hW.le, Ascii.isUppercase]
  by_cases h : (65 : UInt8) ≤ c <;> simp [h]

theorem is_whitespace (c : UInt8) :
    callFn W Text.is_whitespace [.item c] = pure (.bool (Ascii.isWhitespace c)) := by
  rw [callFn]
  simp [Text.is_whitespace, hW.byte, hW.le, hW.eq, Ascii.isWhitespace]
  by_cases h : (9 : UInt8) ≤ c <;> by_cases h' : c ≤ (13 : UInt8) <;> simp [h, h']

theorem is_horizontal_space (c : UInt8) :
    callFn W Text.is_horizontal_space [.item c] = pure (.bool (Ascii.isHorizontalSpace c)) := by
  rw [callFn]
  simp [Text.is_horizontal_space, hW.byte, hW.eq, Ascii.isHorizontalSpace]
  by_cases h : c = 9
  · simp [h]
  · simp [h, beq_eq_false_iff_ne.2 h]

theorem is_end_of_line (c : UInt8) :
    callFn W Text.is_end_of_line [.item c] = pure (.bool (Ascii.isEndOfLine c)) := by
  rw [callFn]
  simp [Text.is_end_of_line, hW.byte, hW.eq, Ascii.isEndOfLine]
  by_cases h : c = 10
  · simp [h]
  · simp [h, beq_eq_false_iff_ne.2 h]

theorem is_digit (c : UInt8) : callFn W Text.is_digit [.item c] = pure (.bool (Ascii.isDigit c)) := by
  rw [callFn]
  simp [Text.is_digit, hW.byte, hW.le, Ascii.isDigit]
  by_cases h : (48 : UInt8) ≤ c <;> simp [h]

theorem is_alpha (c : UInt8) : callFn W Text.is_alpha [.item c] = pure (.bool (Ascii.isAlpha c)) := by
  rw [callFn]
  simp [Text.is_alpha, is_lowercase W hW, is_uppercase W hW, Ascii.isAlpha]
  cases Ascii.isLowercase c <;> simp

theorem is_alphanumeric (c : UInt8) :
    callFn W Text.is_alphanumeric [.item c] = pure (.bool (Ascii.isAlphanumeric c)) := by
  rw [callFn]
  simp [Text.is_alphanumeric, is_alpha W hW, is_digit W hW, Ascii.isAlphanumeric]
  cases Ascii.isAlpha c <;> simp

theorem skip_whitespace (i : Input UInt8) :
    callFn W Text.skip_whitespace [ofInput i]
      = toR (do let r ← Ascii.skipWhitespace i; pure (ofResult ofUnit ofError r)) := by
  rw [callFn]
  simp [Text.skip_whitespace]
  rw [take_while W i _ (fun c => pure (Ascii.isWhitespace c)) (by intro x; simp [is_whitespace W hW]),
    Closures.takeWhile_pure]
  simp [Ascii.skipWhitespace, Parser.map]
  refine toR_congr fun r => ?_
  rw [map W .slice ofError ofUnit r _ (fun _ => pure ()) (by intro a; simp [ofUnit])]
  simp

theorem digit (i : Input UInt8) :
    callFn W Text.digit [ofInput i] = toR (do let r ← Ascii.digit W.verbose i; pure (ofResult .item ofError r)) := by
  rw [callFn]
  simp [Text.digit]
  rw [satisfy W i _ (fun c => pure (Ascii.isDigit c)) (by intro x; simp [is_digit W hW]), Closures.satisfy_pure]
  simp [Ascii.digit]

omit hW

variable (t : T → Y) (N : Numeric.Ops σ T) (hN : NumbersBy W t N)

/-- `Iterator::fold` -/
theorem fold_eq (f : Val UInt8 Y) (g : T → UInt8 → M σ T)
    (h : ∀ a c, apply W f [.other (t a), .item c] = toR (do let x ← g a c; pure (.other (t x))))
    (a : T) (b : List UInt8) :
    fold W f (.other (t a)) b = toR (do let x ← b.foldlM g a; pure (.other (t x))) := by
  induction b generalizing a with
  | nil => simp [fold]
  | cons c b ih => simp [fold, h, ih]

include hW hN

theorem to_decimal_by (b : List UInt8) :
    callFn W Text.to_decimal [.slice b] = toR (do let x ← Numeric.toDecimal N b; pure (.other (t x))) := by
  rw [callFn]
  simp [Text.to_decimal, hN.fromU8, hW.byte, Numeric.toDecimal]
  refine toR_congr fun a => ?_
  rw [fold_eq W t _ (fun a n => do
    let ten ← N.fromU8 10
    let x ← N.mul a ten
    let d ← M.lift (Ascii.digitValue n)
    let y ← N.fromU8 d
    N.add x y)]
  · simp
  · intro a c
    simp [hN.mul, hN.fromU8, hW.byte, hW.sub, hN.add, Ascii.digitValue]

theorem decimal_by (i : Input UInt8) :
    callFn W Text.decimal [ofInput i]
      = toR (do let r ← Numeric.decimal W.verbose N i; pure (ofResult (fun x => .other (t x)) ofError r)) := by
  rw [callFn]
  simp [Text.decimal]
  rw [take_while1 W i _ (fun c => pure (Ascii.isDigit c)) (by intro x; simp [is_digit W hW]),
    Closures.takeWhile1_pure]
  simp [Numeric.decimal, Parser.bind]
  refine toR_congr fun r => ?_
  rw [bind W .slice ofError (fun x => .other (t x)) ofError r _
    (fun i buf => do let x ← Numeric.toDecimal N buf; pure (i.ret x)) id
    (by intro i a; simp [to_decimal_by W hW t N hN, ofResult, Input.ret]) (by intro a; cases a <;> simp [ofError])]
  simp

theorem signed_by (i : Input UInt8) (f : Val UInt8 Y) (p : Parser σ UInt8 T (Error UInt8))
    (h : IsParser W f (fun x => .other (t x)) ofError p) :
    callFn W Text.signed [ofInput i, f]
      = toR (do let r ← Numeric.signed W.verbose N p i; pure (ofResult (fun x => .other (t x)) ofError r)) := by
  rw [callFn]
  simp [Text.signed, hN.fromI8, Numeric.signed]
  refine toR_congr fun one => ?_
  rw [option W (fun x => .other (t x)) ofError _
    (Closures.map (Parsers.satisfy W.verbose (fun c => c == 45 || c == 43))
      (fun s => N.fromI8 (if s == 43 then 1 else -1)))]
  · simp
    refine toR_congr fun r => ?_
    rw [bind W (fun x => .other (t x)) ofError (fun x => .other (t x)) ofError r _
      (fun i sign => do let q ← p i; q.map (fun num => N.mul sign num)) id]
    · simp
    · intro i a
      simp [h _]
      refine toR_congr fun r => ?_
      rw [map W (fun x => .other (t x)) ofError (fun x => .other (t x)) r _ (fun num => N.mul a num)]
      · simp
      · intro b
        simp [hN.mul]
    · intro a
      cases a <;> simp [ofError]
  · intro i
    simp
    rw [satisfy W i _ (fun c => pure (c == 45 || c == 43)), Closures.satisfy_pure]
    · simp [Closures.map]
      refine toR_congr fun r => ?_
      rw [map W .item ofError (fun x => .other (t x)) r _ (fun s => N.fromI8 (if s == 43 then 1 else -1))]
      · simp
      · intro c
        by_cases hc : c = 43 <;> simp [hW.eq, hW.byte, hc, hN.fromI8]
    · intro c
      by_cases hc : c = 45
      · simp [hW.eq, hW.byte, hc]
      · simp [hW.eq, hW.byte, beq_eq_false_iff_ne.2 hc]

omit hN

variable (K : Ascii.Num T) (hK : Numbers W t K)

include hK

theorem decimal (i : Input UInt8) :
    callFn W Text.decimal [ofInput i]
      = toR (do let r ← Ascii.decimal W.verbose K i; pure (ofResult (fun x => .other (t x)) ofError r)) := by
  rw [decimal_by W hW t _ hK.by, Numeric.decimal_ofNum]

theorem signed (i : Input UInt8) (f : Val UInt8 Y) (p : Parser σ UInt8 T (Error UInt8))
    (h : IsParser W f (fun x => .other (t x)) ofError p) :
    callFn W Text.signed [ofInput i, f]
      = toR (do let r ← Ascii.signed W.verbose K p i; pure (ofResult (fun x => .other (t x)) ofError r)) := by
  rw [signed_by W hW t _ hK.by i f p h, Numeric.signed_ofNum]

end

end Chomp.Rust
