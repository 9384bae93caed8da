import Verif.Lemmas.Numeric
import Verif.Props.Built
import Verif.Props.Ascii
import Verif.Props.RustText

/-
C118: reading numbers into any type, whose conversions, additions and multiplications may have effects, panic or
not return. `N` are the operations of the type; the functions are those of Verif/Model/Numeric.lean.
-/

namespace Chomp.Props

open Spec Numeric

variable {σ T : Type}

/-! ### decimal -/

/-- `decimal` on digits uses the type as a calculator: zero, and then for each digit times ten plus the digit,
in this order and nothing else. What the last key leaves is the result; if a key panics or does not return,
neither does `decimal`, and no further key is pressed. -/
theorem C118_decimal (v : Bool) (N : Ops σ T) (m : Mode) (ds rest : List UInt8) (w : σ) (h : DigitRun m ds rest) :
    (∀ x w', press N (keys ds) [] w = .ok ([x], w') ↔
      Numeric.decimal v N ⟨m, ds ++ rest⟩ w = .ok (.data ⟨m, rest⟩ x, w')) ∧
    (press N (keys ds) [] w = .panic ↔ Numeric.decimal v N ⟨m, ds ++ rest⟩ w = .panic) ∧
    (press N (keys ds) [] w = .div ↔ Numeric.decimal v N ⟨m, ds ++ rest⟩ w = .div) ∧
    ∀ r w', Numeric.decimal v N ⟨m, ds ++ rest⟩ w = .ok (r, w') → ∃ x, r = .data ⟨m, rest⟩ x := by
  rw [Numeric.decimal_run h, press_keys N ds fun c hc => (Ascii.isDigit_iff c).mpr (h.2.1 c hc), M.bind_apply]
  match toDecimal N ds w with
  | .ok (x, w1) =>
    simp only [Res.bind_ok, M.pure_apply]
    refine ⟨fun y w' => ⟨fun h => by cases h; rfl, fun h => by cases h; rfl⟩, ⟨nofun, nofun⟩, ⟨nofun, nofun⟩,
      fun r w' h => ⟨x, ?_⟩⟩
    cases h; rfl
  | .panic => exact ⟨fun y w' => ⟨nofun, nofun⟩, ⟨fun _ => rfl, fun _ => rfl⟩, ⟨nofun, nofun⟩, nofun⟩
  | .ub => exact ⟨fun y w' => ⟨nofun, nofun⟩, ⟨nofun, nofun⟩, ⟨nofun, nofun⟩, nofun⟩
  | .div => exact ⟨fun y w' => ⟨nofun, nofun⟩, ⟨nofun, nofun⟩, ⟨fun _ => rfl, fun _ => rfl⟩, nofun⟩

/-- For `n` digits there are `1 + 2 * n` conversions, `n` multiplications and `n` additions. -/
theorem C118_keys (ds : List UInt8) :
    (keys ds).length = 1 + 4 * ds.length ∧ (keys ds).count .mul = ds.length ∧ (keys ds).count .add = ds.length := by
  unfold keys
  induction ds with
  | nil => exact ⟨rfl, rfl, rfl⟩
  | cons c ds ih =>
    simp only [List.flatMap_cons, List.length_cons, List.length_append, List.count_cons, List.count_append,
      List.count_nil, List.length_nil] at ih ⊢
    simp at ih ⊢
    omega

/-- Where there is no complete number, the type is not touched: `decimal` returns the same as for any other type
of numbers, and leaves the captured state as it is. So on a stream nothing is done twice for a number which
arrives in several pieces. -/
theorem C118_none (v : Bool) (i : Input UInt8) (h : ∀ ds rest, i.buf = ds ++ rest → ¬ DigitRun i.mode ds rest) :
    ∃ r : ParseResult UInt8 T (Error UInt8), (∀ j t, r ≠ .data j t) ∧
      ∀ {σ : Type} (N : Ops σ T) (w : σ), Numeric.decimal v N i w = .ok (r, w) :=
  decimal_none v i h

/-- If the operations keep to what the numbers stand for, whatever else they do, the result stands for the value
of the digits. -/
theorem C118_value (v : Bool) (N : Ops σ T) (R : T → Int → Prop) (hN : Represents N R) (m : Mode)
    (ds rest : List UInt8) (w w' : σ) (r : ParseResult UInt8 T (Error UInt8)) (h : DigitRun m ds rest)
    (hr : Numeric.decimal v N ⟨m, ds ++ rest⟩ w = .ok (r, w')) :
    ∃ x, r = .data ⟨m, rest⟩ x ∧ R x (value ds) := by
  rw [Numeric.decimal_run h] at hr
  match hx : toDecimal N ds w, hr with
  | .ok (x, w1), hr =>
    cases hr
    exact ⟨x, rfl, toDecimal_represents hN ds (fun c hc => (Ascii.isDigit_iff c).mpr (h.2.1 c hc)) w w1 x hx⟩

/-! ### signed -/

/-- `signed` converts 1 first, before it looks at the input. After '-' or '+' the sign is converted too, and
the converted 1 is not used; otherwise it is the sign. Then the parser runs, and its number is multiplied by the
sign, from the left; errors are left as they are. -/
theorem C118_signed (v : Bool) (N : Ops σ T) (p : Parser σ UInt8 T (Error UInt8)) (m : Mode) (b : List UInt8)
    (w w1 : σ) (one : T) (h1 : N.fromI8 1 w = .ok (one, w1)) :
    Numeric.signed v N p ⟨m, byte '-' :: b⟩ w = (N.fromI8 (-1) w1 >>= fun s => multiplied N s.1 (p ⟨m, b⟩ s.2)) ∧
    Numeric.signed v N p ⟨m, byte '+' :: b⟩ w = (N.fromI8 1 w1 >>= fun s => multiplied N s.1 (p ⟨m, b⟩ s.2)) ∧
    ((b = [] → m = .endOfInput) → b.head? ≠ some (byte '-') → b.head? ≠ some (byte '+') →
      Numeric.signed v N p ⟨m, b⟩ w = multiplied N one (p ⟨m, b⟩ w1)) ∧
    Numeric.signed v N p ⟨.default, []⟩ w = .ok (.incomplete 1, w1) := by
  refine ⟨?_, ?_, fun h0 hm hp => ?_, ?_⟩
  · rw [Numeric.signed_eq, h1]; rfl
  · rw [Numeric.signed_eq, h1]; rfl
  · rw [Numeric.signed_eq, h1, Res.bind_ok]
    cases b with
    | nil => cases h0 rfl; rfl
    | cons c b =>
      dsimp only
      rw [if_neg (fun e : c = 45 => hm (congrArg some e)), if_neg (fun e : c = 43 => hp (congrArg some e))]
  · rw [Numeric.signed_eq, h1]; rfl

/-- If the conversion of 1 panics or does not return, neither does `signed`, whatever the input is. -/
theorem C118_signed_first (v : Bool) (N : Ops σ T) (p : Parser σ UInt8 T (Error UInt8)) (i : Input UInt8) (w : σ) :
    (N.fromI8 1 w = .panic → Numeric.signed v N p i w = .panic) ∧
    (N.fromI8 1 w = .div → Numeric.signed v N p i w = .div) := by
  rw [Numeric.signed_eq]
  exact ⟨fun h => by rw [h]; rfl, fun h => by rw [h]; rfl⟩

/-- `signed` around `decimal` reads what is written, up to what the numbers stand for. -/
theorem C118_signed_value (v : Bool) (N : Ops σ T) (R : T → Int → Prop) (hN : Represents N R) (m : Mode)
    (ds rest : List UInt8) (h : DigitRun m ds rest) (sign : List UInt8) (s : Int)
    (hs : sign = [] ∧ s = 1 ∨ sign = [byte '+'] ∧ s = 1 ∨ sign = [byte '-'] ∧ s = -1)
    (w w' : σ) (r : ParseResult UInt8 T (Error UInt8))
    (hr : Numeric.signed v N (Numeric.decimal v N) ⟨m, sign ++ (ds ++ rest)⟩ w = .ok (r, w')) :
    ∃ x, r = .data ⟨m, rest⟩ x ∧ R x (s * value ds) := by
  have key : ∀ (y : T) (z : Int) (w1 : σ), R y z →
      multiplied N y (Numeric.decimal v N ⟨m, ds ++ rest⟩ w1) = .ok (r, w') →
      ∃ x, r = .data ⟨m, rest⟩ x ∧ R x (z * value ds) := by
    intro y z w1 hy hm
    match hd : Numeric.decimal v N ⟨m, ds ++ rest⟩ w1, hm with
    | .ok (q, w2), hm =>
      obtain ⟨x, rfl, hx⟩ := C118_value v N R hN m ds rest w1 w2 q h hd
      match hmul : N.mul y x w2 with
      | .ok (t, w3) =>
        have hm : N.mul y x w2 >>= (fun y => .ok (.data ⟨m, rest⟩ y.1, y.2)) = .ok (r, w') := hm
        rw [hmul] at hm
        cases hm
        exact ⟨t, rfl, hN.mul _ _ _ _ _ _ _ hy hx hmul⟩
      | .panic | .ub | .div =>
        have hm : N.mul y x w2 >>= (fun y => .ok (.data ⟨m, rest⟩ y.1, y.2)) = .ok (r, w') := hm
        rw [hmul] at hm
        cases hm
  match h1 : N.fromI8 1 w with
  | .ok (one, w1) =>
    have hsig := C118_signed v N (Numeric.decimal v N) m (ds ++ rest) w w1 one h1
    rcases hs with ⟨rfl, rfl⟩ | ⟨rfl, rfl⟩ | ⟨rfl, rfl⟩
    · obtain ⟨c, cs, rfl⟩ := List.exists_cons_of_ne_nil h.1
      have hc := Ascii.digit_range ((Ascii.isDigit_iff c).mpr (h.2.1 c List.mem_cons_self))
      rw [List.nil_append, hsig.2.2.1 nofun
        (fun e => by cases (Option.some.inj e); exact absurd hc.1 (by decide))
        (fun e => by cases (Option.some.inj e); exact absurd hc.1 (by decide))] at hr
      exact key one 1 w1 (hN.fromI8 _ _ _ _ h1) hr
    · rw [List.singleton_append, hsig.2.1] at hr
      match h2 : N.fromI8 1 w1, hr with
      | .ok (y, w2), hr => exact key y 1 w2 (hN.fromI8 _ _ _ _ h2) hr
    · rw [List.singleton_append, hsig.1] at hr
      match h2 : N.fromI8 (-1) w1, hr with
      | .ok (y, w2), hr => exact key y (-1) w2 (hN.fromI8 _ _ _ _ h2) hr
  | .panic => rw [(C118_signed_first v N _ _ w).1 h1] at hr; cases hr
  | .div => rw [(C118_signed_first v N _ _ w).2 h1] at hr; cases hr
  | .ub => rw [Numeric.signed_eq, h1] at hr; cases hr

/-! ### The other properties -/

/-- Operations without effects give the functions of the other properties. -/
theorem C118_function (v : Bool) (N : Ascii.Num T) (p : Parser σ UInt8 T (Error UInt8)) :
    Numeric.decimal v (ofNum N : Ops σ T) = Ascii.decimal v N ∧
    Numeric.signed v (ofNum N : Ops σ T) p = Ascii.signed v N p :=
  ⟨decimal_ofNum v N, signed_ofNum v N p⟩

/-- What holds of all parsers assembled from the library holds with such numbers. -/
theorem C118_built {a : Allow} (v : Bool) (N : Ops σ T) (hN : a.mayPanic = false → Calm N) :
    Built a (Numeric.decimal v N) := by
  have e : Numeric.decimal v N = Closures.map (Parsers.takeWhile1 v Ascii.isDigit)
      (fun buf => if buf.all Ascii.isDigit then toDecimal N buf else N.fromU8 0) := by
    funext i w
    unfold Numeric.decimal Parser.bind Closures.map
    rw [M.bind_apply, M.bind_apply, Parsers.takeWhile1_eq]
    simp only [Res.bind_ok]
    split
    · rfl
    · split
      · rfl
      · split
        · rfl
        · rw [ParseResult.bind_data]
          rw [ParseResult.map]
          simp only [List.all_takeWhile, if_true]
          rfl
  rw [e]
  refine .mapM _ (fun ha buf w => ?_) (.takeWhile1 v _)
  split
  · rename_i hb
    exact toDecimal_calm (hN ha) buf (fun c hc => List.all_eq_true.mp hb c hc) w
  · exact (hN ha).fromU8 0 w

theorem C118_signed_built {a : Allow} (v : Bool) (N : Ops σ T) (hN : a.mayPanic = false → Calm N)
    {p : Parser σ UInt8 T (Error UInt8)} (hp : Built a p) : Built a (Numeric.signed v N p) := by
  refine .effect (fun ha => (hN ha).fromI8 1) fun one => ?_
  exact .bind (p := Comb.option (Closures.map (Parsers.satisfy v (fun c => c == 45 || c == 43))
      (fun s => N.fromI8 (if s == 43 then 1 else -1))) one) (conv := id)
    (.option one (.mapM _ (fun ha _ => (hN ha).fromI8 _) (.satisfy v _)))
    fun sign => .mapM (fun num => N.mul sign num) (fun ha _ => (hN ha).mul _ _) hp

/-! ### The text -/

section

open Rust

variable [Build] {Y : Type} (W : World σ UInt8 Y) (hW : Bytes W) (y : T → Y) (N : Ops σ T) (hN : NumbersBy W y N)

include hW hN

/-- The text of `decimal` and `signed`, run as Rust with the operations of such a type, does just that. -/
theorem C118_text (i : Input UInt8) :
    run W Text.decimal [ofInput i]
      = (do let r ← Numeric.decimal W.verbose N i; pure (ofResult (fun x => .other (y x)) ofError r)) ∧
    ∀ (f : Val UInt8 Y) (p : Parser σ UInt8 T (Error UInt8)), IsParser W f (fun x => .other (y x)) ofError p →
      run W Text.signed [ofInput i, f]
        = (do let r ← Numeric.signed W.verbose N p i; pure (ofResult (fun x => .other (y x)) ofError r)) :=
  ⟨run_eq W (decimal_by W hW y N hN i), fun f p h => run_eq W (signed_by W hW y N hN i f p h)⟩

end

/-! ### Cases which meet the hypotheses -/

namespace NumericEx

/-- Integers which write down what is done with them. -/
def logged : Ops (List String) Int where
  fromU8 b := do modify (· ++ [s!"u8 {b.toNat}"]); pure b.toNat
  fromI8 z := do modify (· ++ [s!"i8 {z}"]); pure z
  add a b := do modify (· ++ [s!"{a} + {b}"]); pure (a + b)
  mul a b := do modify (· ++ [s!"{a} * {b}"]); pure (a * b)

/-- Integers which panic above 100, and count their multiplications. -/
def percent : Ops Nat Int where
  fromU8 b := pure b.toNat
  fromI8 z := pure z
  add a b := if a + b ≤ 100 then pure (a + b) else M.panic
  mul a b := do modify (· + 1); pure (a * b)

theorem percent_represents : Represents percent (fun x z => x = z) where
  fromU8 _ _ _ _ h := by cases h; rfl
  fromI8 _ _ _ _ h := by cases h; rfl
  add a b y z w x w' hy hz h := by
    subst hy hz
    unfold percent at h
    by_cases hl : a + b ≤ 100
    · simp only [if_pos hl] at h; cases h; rfl
    · simp only [if_neg hl] at h; cases h
  mul a b y z w x w' hy hz h := by subst hy hz; cases h; rfl

theorem run_12 : DigitRun .default (bytes "12") (bytes ";") := by
  refine ⟨nofun, ?_, ?_⟩ <;> decide

example : keys (bytes "12") = [.num 0, .num 10, .mul, .num 1, .add, .num 10, .mul, .num 2, .add] := rfl

-- "12;"
example : Numeric.decimal true logged ⟨.default, bytes "12" ++ bytes ";"⟩ [] =
    .ok (.data ⟨.default, bytes ";"⟩ 12,
      ["u8 0", "u8 10", "0 * 10", "u8 1", "0 + 1", "u8 10", "1 * 10", "u8 2", "10 + 2"]) :=
  ((C118_decimal true logged _ _ _ [] run_12).1 12 _).mp (by rfl)

example : Numeric.decimal true percent ⟨.default, bytes "12" ++ bytes ";"⟩ 5 = .ok (.data ⟨.default, bytes ";"⟩ 12, 7) :=
  ((C118_decimal true percent _ _ _ 5 run_12).1 12 7).mp rfl

-- "101;" is too much
example : Numeric.decimal true percent ⟨.default, bytes "101" ++ bytes ";"⟩ 0 = .panic :=
  (C118_decimal true percent _ (bytes "101") (bytes ";") 0
    (by refine ⟨?_, ?_, ?_⟩ <;> decide)).2.1.mp rfl

-- "12" where more may follow: no operation
example : ∃ r, (∀ j t, r ≠ .data j t) ∧
    ∀ {σ : Type} (N : Ops σ Int) (w : σ), Numeric.decimal true N ⟨.default, bytes "12"⟩ w = .ok (r, w) :=
  ⟨.incomplete 1, nofun, fun _ _ => rfl⟩

-- "-5;" converts 1 and -1
example : Numeric.signed true logged (Numeric.decimal true logged) ⟨.default, bytes "-5;"⟩ [] =
    .ok (.data ⟨.default, bytes ";"⟩ (-5), ["i8 1", "i8 -1", "u8 0", "u8 10", "0 * 10", "u8 5", "0 + 5", "-1 * 5"]) :=
  rfl

example : Stable (Numeric.signed true percent (Numeric.decimal true percent)) :=
  C07_stable (C118_signed_built (a := streaming) true percent (by intro h; cases h)
    (C118_built true percent (by intro h; cases h)))

/-- The text is run with integers which write down what is done with them. -/
def world : Rust.World (List String) UInt8 Int where
  verbose := true
  ext _ _ := M.panic
  eq a b := pure (a == b)
  ne a b := pure (a != b)
  clone := pure
  cloneOther := pure
  from_ := pure
  byte n := UInt8.ofNat n
  le a b := a ≤ b
  sub a b := if b ≤ a then .ok (a - b) else .panic
  fromU8 := logged.fromU8
  fromI8 := logged.fromI8
  add := logged.add
  mul := logged.mul
  collect := (TextEx.vec (.con "Vec" ·)).machine

theorem world_bytes : Rust.Bytes world := ⟨fun _ => rfl, fun _ _ => rfl, fun _ _ => rfl, fun _ _ => rfl⟩

theorem world_numbers : Rust.NumbersBy world id logged :=
  ⟨fun _ => (bind_pure _).symm, fun _ => (bind_pure _).symm, fun _ _ => (bind_pure _).symm,
    fun _ _ => (bind_pure _).symm⟩

-- the text of `signed` and `decimal` on "-5;"
example [Build] : Rust.run world Rust.Text.signed [Rust.ofInput ⟨.default, bytes "-5;"⟩, .fn "decimal"] [] =
    .ok (Rust.ofResult (.other ·) Rust.ofError (.data ⟨.default, bytes ";"⟩ (-5)),
      ["i8 1", "i8 -1", "u8 0", "u8 10", "0 * 10", "u8 5", "0 + 5", "-1 * 5"]) := by
  rw [(C118_text world world_bytes id logged world_numbers _).2 _ (Numeric.decimal true logged)
    (fun i => by simp [Rust.apply]; exact Rust.decimal_by world world_bytes id _ world_numbers i)]
  rfl

end NumericEx

open NumericEx in
/-- The effects of `signed` are not independent of chunks: it converts 1 once more for each time it is tried. -/
theorem C118_signed_again :
    Numeric.signed true logged (Numeric.decimal true logged) ⟨.default, []⟩ [] = .ok (.incomplete 1, ["i8 1"]) ∧
    Numeric.signed true logged (Numeric.decimal true logged) ⟨.default, bytes "5"⟩ ["i8 1"] =
      .ok (.incomplete 1, ["i8 1", "i8 1"]) := ⟨rfl, rfl⟩

end Chomp.Props
