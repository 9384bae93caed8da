import Verif.Spec.Numeric
import Verif.Spec.Built
import Verif.Lemmas.Ascii
import Verif.Lemmas.Closures

/- Lemmas about `decimal` and `signed` for any type of numbers. -/

namespace Chomp.Numeric

open Ascii Spec

theorem digitValue_digit {c : UInt8} (h : isDigit c = true) :
    digitValue c = .ok (UInt8.ofNat (c.toNat - 48)) := by
  have hr := digit_range h
  have hle : (48 : UInt8) ≤ c := UInt8.le_iff_toNat_le.mpr hr.1
  unfold digitValue
  rw [if_pos hle]
  congr 1
  apply UInt8.toNat.inj
  rw [UInt8.toNat_sub_of_le _ _ hle, UInt8.toNat_ofNat']
  have := c.toNat_lt
  show c.toNat - 48 = _
  omega

/-- The keys for the digits, with the number so far on the stack. -/
theorem press_digits (N : Ops σ T) (ds : List UInt8) (hd : ∀ c ∈ ds, isDigit c = true) (a : T) :
    press N (ds.flatMap fun c => [.num 10, .mul, .num (c.toNat - 48), .add]) [a] = (do
      let x ← ds.foldlM (fun a n => do
        let ten ← N.fromU8 10
        let x ← N.mul a ten
        let d ← M.lift (digitValue n)
        let y ← N.fromU8 d
        N.add x y) a
      pure [x]) := by
  induction ds generalizing a with
  | nil => simp [press]
  | cons c ds ih =>
    have ih := fun a => ih (fun d h => hd d (List.mem_cons_of_mem _ h)) a
    rw [List.flatMap_cons, List.foldlM_cons]
    simp only [List.cons_append, List.nil_append, press, bind_assoc, ih]
    rw [digitValue_digit (hd c List.mem_cons_self)]
    rfl

theorem press_keys (N : Ops σ T) (ds : List UInt8) (hd : ∀ c ∈ ds, isDigit c = true) :
    press N (keys ds) [] = (do let x ← toDecimal N ds; pure [x]) := by
  unfold keys toDecimal
  rw [press]
  simp only [bind_assoc]
  congr 1
  funext a
  exact press_digits N ds hd a

theorem takeWhile1_run {m : Mode} {ds rest : List UInt8} (h : DigitRun m ds rest) (v : Bool) (w : σ) :
    Parsers.takeWhile1 v isDigit ⟨m, ds ++ rest⟩ w = .ok (.data ⟨m, rest⟩ ds, w) := by
  have hw := run_takeWhile h
  have hn := run_not_all h
  rw [Parsers.takeWhile1_eq]
  obtain ⟨h0, hd, _⟩ := h
  cases ds with
  | nil => exact absurd rfl h0
  | cons c ds =>
    have hc : isDigit c = true := (isDigit_iff c).mpr (hd c (by simp))
    dsimp only [List.cons_append] at hw hn ⊢
    rw [if_neg (by simp [hc]), if_neg hn, hw.1, hw.2]

theorem decimal_run {m : Mode} {ds rest : List UInt8} (h : DigitRun m ds rest) (v : Bool) (N : Ops σ T) (w : σ) :
    decimal v N ⟨m, ds ++ rest⟩ w = toDecimal N ds w >>= fun x => .ok (.data ⟨m, rest⟩ x.1, x.2) := by
  unfold decimal Parser.bind
  rw [M.bind_ok (takeWhile1_run h v w), ParseResult.bind_data]
  rfl

/-- Where there is no number, nothing is done with numbers. -/
theorem decimal_none (v : Bool) (i : Input UInt8) (h : ∀ ds rest, i.buf = ds ++ rest → ¬ DigitRun i.mode ds rest) :
    ∃ r : ParseResult UInt8 T (Error UInt8), (∀ j t, r ≠ .data j t) ∧
      ∀ {σ : Type} (N : Ops σ T) (w : σ), decimal v N i w = .ok (r, w) := by
  obtain ⟨m, b⟩ := i
  have key : ∀ (r : ParseResult UInt8 (List UInt8) (Error UInt8)) (q : ParseResult UInt8 T (Error UInt8)),
      (∀ {σ : Type} (w : σ), Parsers.takeWhile1 v isDigit ⟨m, b⟩ w = .ok (r, w)) →
      (∀ {σ : Type} (N : Ops σ T), r.bind id (fun i buf => do let x ← toDecimal N buf; pure (i.ret x)) = pure q) →
      ∀ {σ : Type} (N : Ops σ T) (w : σ), decimal v N ⟨m, b⟩ w = .ok (q, w) := by
    intro r q hr hq σ N w
    unfold decimal Parser.bind
    rw [M.bind_ok (hr w)]
    exact congrFun (hq N) w
  have tw := fun {σ : Type} (w : σ) => Parsers.takeWhile1_eq v isDigit ⟨m, b⟩ w
  cases b with
  | nil => exact ⟨.incomplete 1, nofun, key _ _ tw fun N => rfl⟩
  | cons c r =>
    dsimp only at tw
    by_cases hc : isDigit c = false
    · simp only [if_pos hc] at tw
      exact ⟨.error (c :: r) (Err.unexpected v), nofun, key _ _ tw fun N => rfl⟩
    · simp only [if_neg hc] at tw
      by_cases hn : m = .default ∧ (c :: r).all isDigit = true
      · simp only [if_pos hn] at tw
        exact ⟨.incomplete 1, nofun, key _ _ tw fun N => rfl⟩
      · exfalso
        refine h ((c :: r).takeWhile isDigit) ((c :: r).dropWhile isDigit) (List.takeWhile_append_dropWhile).symm
          ⟨?_, ?_, ?_⟩
        · simp [Bool.of_not_eq_false hc]
        · intro d hd
          exact (isDigit_iff d).mp (List.all_eq_true.mp (List.all_takeWhile (l := c :: r)) d hd)
        · cases hdw : (c :: r).dropWhile isDigit with
          | nil =>
            have ha : (c :: r).all isDigit = true := by
              rw [← List.takeWhile_append_dropWhile (p := isDigit) (l := c :: r), hdw, List.append_nil]
              exact List.all_takeWhile
            cases m
            · exact absurd ⟨rfl, ha⟩ hn
            · rfl
          | cons d q =>
            show ¬ _
            rw [← isDigit_iff]
            have := List.head?_dropWhile_not isDigit (c :: r)
            rw [hdw] at this
            simpa using this

/-! ### values -/

theorem fold_represents {N : Ops σ T} {R : T → Int → Prop} (hN : Represents N R) (ds : List UInt8)
    (hd : ∀ c ∈ ds, isDigit c = true) (a : T) (n : Nat) (ha : R a n) (w w' : σ) (x : T)
    (h : (ds.foldlM (fun a n => do
        let ten ← N.fromU8 10
        let x ← N.mul a ten
        let d ← M.lift (digitValue n)
        let y ← N.fromU8 d
        N.add x y) a : M σ T) w = .ok (x, w')) :
    R x (ds.foldl (fun a c => 10 * a + (c.toNat - 48)) n : Nat) := by
  induction ds generalizing a n w with
  | nil => cases h; exact ha
  | cons c ds ih =>
    rw [List.foldlM_cons, digitValue_digit (hd c List.mem_cons_self)] at h
    have hdig := digit_range (hd c List.mem_cons_self)
    simp only [bind_assoc] at h
    obtain ⟨ten, w1, h1, g1⟩ := M.bind_eq_ok.mp h
    obtain ⟨y, w2, h2, g2⟩ := M.bind_eq_ok.mp g1
    obtain ⟨d, w3, h3, g3⟩ := M.bind_eq_ok.mp g2
    obtain ⟨z, w4, h4, g4⟩ := M.bind_eq_ok.mp g3
    obtain ⟨u, w5, h5, g5⟩ := M.bind_eq_ok.mp g4
    cases h3
    have r1 := hN.mul _ _ _ _ _ _ _ ha (hN.fromU8 _ _ _ _ h1) h2
    have r2 := hN.add _ _ _ _ _ _ _ r1 (hN.fromU8 _ _ _ _ h4) h5
    refine ih (fun d h => hd d (List.mem_cons_of_mem _ h)) u (10 * n + (c.toNat - 48)) ?_ w5 g5
    have e : ((10 * n + (c.toNat - 48) : Nat) : Int)
        = (n : Int) * (10 : UInt8).toNat + (UInt8.ofNat (c.toNat - 48)).toNat := by
      rw [UInt8.toNat_ofNat']
      rw [show (10 : UInt8).toNat = 10 from rfl]
      have := c.toNat_lt
      rw [Nat.mod_eq_of_lt (by omega)]
      omega
    rw [e]
    exact r2

theorem toDecimal_represents {N : Ops σ T} {R : T → Int → Prop} (hN : Represents N R) (ds : List UInt8)
    (hd : ∀ c ∈ ds, isDigit c = true) (w w' : σ) (x : T) (h : toDecimal N ds w = .ok (x, w')) :
    R x (value ds) := by
  unfold toDecimal at h
  obtain ⟨a, w1, h1, h⟩ := M.bind_eq_ok.mp h
  exact fold_represents hN ds hd a 0 (hN.fromU8 _ _ _ _ h1) w1 w' x h

/-! ### signed -/

theorem signed_eq (v : Bool) (N : Ops σ T) (p : Parser σ UInt8 T (Error UInt8)) (i : Input UInt8) (w : σ) :
    signed v N p i w = N.fromI8 1 w >>= fun one => match i.buf with
      | [] => if i.mode = .endOfInput then multiplied N one.1 (p i one.2) else .ok (.incomplete 1, one.2)
      | c :: r =>
        if c = 45 then N.fromI8 (-1) one.2 >>= fun s => multiplied N s.1 (p ⟨i.mode, r⟩ s.2)
        else if c = 43 then N.fromI8 1 one.2 >>= fun s => multiplied N s.1 (p ⟨i.mode, r⟩ s.2)
        else multiplied N one.1 (p i one.2) := by
  obtain ⟨m, b⟩ := i
  have fin : ∀ (j : Input UInt8) (s : T) (w : σ), (do
      let q ← p j
      q.map (fun num => N.mul s num) : M σ _) w = multiplied N s (p j w) := by
    intro j s w
    rw [M.bind_apply]
    match p j w with
    | .ok (.data i n, w) => rfl
    | .ok (.error b e, w) => rfl
    | .ok (.incomplete n, w) => rfl
    | .panic => rfl
    | .ub => rfl
    | .div => rfl
  unfold signed
  rw [M.bind_apply]
  congr 1
  funext one
  obtain ⟨one, w⟩ := one
  dsimp only
  unfold Comb.option Closures.map
  cases b with
  | nil =>
    have e := Parsers.satisfy_eq (σ := σ) v (fun c : UInt8 => c == 45 || c == 43) ⟨m, []⟩ w
    simp only [bind_assoc]
    rw [M.bind_ok e]
    simp only [ParseResult.map, pure_bind]
    cases m
    · rfl
    · simp only [Input.isLastSlice, if_true, pure_bind, Input.ret, ParseResult.bind_data]
      exact fin _ _ _
  | cons c r =>
    have e := Parsers.satisfy_eq (σ := σ) v (fun c : UInt8 => c == 45 || c == 43) ⟨m, c :: r⟩ w
    simp only [bind_assoc]
    rw [M.bind_ok e]
    dsimp only
    by_cases h1 : c = 45
    · subst h1
      simp only [beq_self_eq_true, Bool.true_or, if_true, ParseResult.map, pure_bind, Input.ret, bind_assoc,
        ParseResult.bind_data]
      rw [M.bind_apply]
      congr 1
      funext s
      exact fin _ _ _
    · by_cases h2 : c = 43
      · subst h2
        simp only [beq_self_eq_true, Bool.or_true, if_true, ParseResult.map, pure_bind, Input.ret, bind_assoc,
          ParseResult.bind_data, h1, if_false]
        rw [M.bind_apply]
        congr 1
        funext s
        exact fin _ _ _
      · simp only [beq_iff_eq, h1, h2, if_false, ParseResult.map, pure_bind, Input.ret,
          ParseResult.bind_data, Bool.or_eq_true, or_self]
        exact fin _ _ _

/-! ### operations without effects -/

theorem toDecimal_ofNum (N : Num T) (ds : List UInt8) :
    toDecimal (ofNum N : Ops σ T) ds = M.lift (Ascii.toDecimal N ds) := by
  unfold toDecimal Ascii.toDecimal
  simp only [ofNum, pure_bind]
  generalize N.fromU8 0 = a
  induction ds generalizing a with
  | nil => rfl
  | cons c ds ih =>
    rw [List.foldlM_cons, List.foldlM_cons]
    simp only [ih]
    funext w
    simp only [M.bind_apply, M.lift]
    cases N.mul a (N.fromU8 10) with
    | ok x =>
      simp only [Res.bind_ok]
      cases digitValue c with
      | ok d =>
        simp only [Res.bind_ok]
        cases N.add x (N.fromU8 d) <;> rfl
      | _ => rfl
    | _ => rfl

theorem decimal_ofNum (v : Bool) (N : Num T) : decimal v (ofNum N : Ops σ T) = Ascii.decimal v N := by
  unfold decimal Ascii.decimal
  congr 1
  funext buf i
  rw [toDecimal_ofNum]

theorem signed_ofNum (v : Bool) (N : Num T) (p : Parser σ UInt8 T (Error UInt8)) :
    signed v (ofNum N : Ops σ T) p = Ascii.signed v N p := by
  funext i w
  rw [signed_eq, Ascii.signed_eq]
  have h : ∀ s x, multiplied (ofNum N : Ops σ T) s x = times N s x := by
    intro s x
    match x with
    | .ok (.data i n, w) => rfl
    | .ok (.error b e, w) => rfl
    | .ok (.incomplete n, w) => rfl
    | .panic => rfl
    | .ub => rfl
    | .div => rfl
  simp only [h]
  rfl

/-! ### parsers assembled from the library -/

theorem toDecimal_calm {N : Ops σ T} (hN : Calm N) (ds : List UInt8) (hd : ∀ c ∈ ds, isDigit c = true) (w : σ) :
    toDecimal N ds w ≠ .panic := by
  have nb : ∀ {A B : Type} {x : M σ A} {f : A → M σ B}, (∀ w, x w ≠ .panic) → (∀ a w, f a w ≠ .panic) →
      ∀ w, (x >>= f) w ≠ .panic := by
    intro A B x f hx hf w
    rw [M.bind_apply]
    have := hx w
    match hxw : x w with
    | .ok (a, w') => exact hf a w'
    | .panic => exact absurd hxw this
    | .ub => exact nofun
    | .div => exact nofun
  unfold toDecimal
  refine nb (hN.fromU8 0) (fun a => ?_) w
  induction ds generalizing a with
  | nil => exact fun w => nofun
  | cons c ds ih =>
    rw [List.foldlM_cons, digitValue_digit (hd c List.mem_cons_self)]
    refine nb (nb (hN.fromU8 _) fun _ => nb (hN.mul _ _) fun _ => nb (fun w => ?_) fun _ => nb (hN.fromU8 _) fun _ =>
      hN.add _ _) fun a => ih (fun d h => hd d (List.mem_cons_of_mem _ h)) a
    exact nofun

end Chomp.Numeric
