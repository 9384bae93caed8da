import Verif.Lemmas.Recursive

/-
Functions which consume before they call terminate.
-/

namespace Chomp

open Spec Props

namespace Recursive

open Chomp.Productive

variable {K : Type} {σ I : Type} {T E : K → Type} {u : K → Bool} {rk : K → Nat}

/-- Bodies behave if the functions do. -/
theorem guarded_sound {g : Option Nat} {c : Bool} {x : Fns σ I T E → Parser σ I T' E'} (h : Guarded u rk g c x)
    {q : Fns σ I T E} (hq : ∀ k, Nice (u k) (q k) ∧ Returns (q k)) : Nice c (x q) ∧ Returns (x q) := by
  induction h with
  | weaken _ _ hc ih => exact ⟨fun i w => (ih.1 i w).weaken hc, ih.2⟩
  | call k _ => exact hq k
  | const h => exact sound h
  | bind _ _ ihp ihf => exact ⟨nice_bindP ihp.1 fun t => (ihf t).1, returns_bindP ihp.2 fun t => (ihf t).2⟩
  | andThen _ _ ihp ihq =>
    exact ⟨nice_bindP (f := fun _ => _) ihp.1 fun _ => ihq.1, returns_bindP (f := fun _ => _) ihp.2 fun _ => ihq.2⟩
  | map f _ ih => exact ⟨nice_map ih.1 f, returns_map ih.2 f⟩
  | mapErr f _ ih => exact ⟨nice_mapErr ih.1 f, returns_mapErr ih.2 f⟩
  | inspect f hf _ ih => exact ⟨nice_inspect ih.1 f hf, returns_inspect ih.2 f hf⟩
  | effect hg _ ih =>
    refine ⟨fun i w => ?_, fun i w => ?_⟩
    · exact nice_effect (k := fun x => _) (hg w).2 fun x w => (ih x).1 i w
    · exact ne_div_bind (hg w).1 fun x _ => (ih x.1).2 i x.2
  | mapM f hf _ ih => exact ⟨nice_mapM ih.1 f hf, returns_mapM ih.2 f hf⟩
  | mapErrM f hf _ ih => exact ⟨nice_mapErrM ih.1 f hf, returns_mapErrM ih.2 f hf⟩
  | count n c _ ih => exact ⟨nice_many ih.1 (.exactly n) c, C30_many (.exactly n) c _ ih.2 (.inr True.intro)⟩
  | option t _ ih => exact ⟨nice_option ih.1 t, returns_option ih.2 t⟩
  | or _ _ ihp ihq => exact ⟨nice_or ihp.1 ihq.1, returns_or ihp.2 ihq.2⟩
  | many c _ ih => exact ⟨nice_many ih.1 .full c, C30_many .full c _ ih.2 (.inl ih.1.consumes)⟩
  | many1 c _ ih => exact ⟨nice_many ih.1 (.from_ 1) c, C30_many (.from_ 1) c _ ih.2 (.inl ih.1.consumes)⟩
  | sepBy conv c h _ _ ihp ihs =>
    refine ⟨fun i w => nice_newLocal (?_ : NiceR false i _),
      (C30_sep_by conv c _ _ ihp.2 ihs.2 (sep_consumes h ihp.1 ihs.1) ihp.1.shrinks ihs.1.shrinks).1⟩
    have := nice_many (nice_sepParser conv ihp.1 ihs.1) .full c i (w, false)
    rwa [show needsOne .full = false from rfl, Bool.and_false] at this
  | sepBy1 conv c h _ _ ihp ihs =>
    refine ⟨fun i w => nice_newLocal (?_ : NiceR _ i _),
      (C30_sep_by conv c _ _ ihp.2 ihs.2 (sep_consumes h ihp.1 ihs.1) ihp.1.shrinks ihs.1.shrinks).2⟩
    have := nice_many (nice_sepParser conv ihp.1 ihs.1) (.from_ 1) c i (w, false)
    rwa [show needsOne (.from_ 1) = true from rfl, Bool.and_true] at this
  | manyTill c _ _ ihp ihe =>
    exact ⟨nice_till ihp.1 ihe.1 .full c, C30_many_till .full c _ _ ihp.2 ihe.2 (.inl ihp.1.consumes)⟩
  | skipMany _ ih => exact ⟨nice_skipMany ih.1 .full, C30_skip_many .full _ ih.2 (.inl ih.1.consumes)⟩
  | skipMany1 _ ih => exact ⟨nice_skipMany ih.1 (.from_ 1), C30_skip_many (.from_ 1) _ ih.2 (.inl ih.1.consumes)⟩
  | matchedBy _ ih => exact ⟨nice_matchedBy ih.1, returns_matchedBy ih.1 ih.2⟩
  | lookAhead _ ih => exact ⟨nice_lookAhead ih.1, returns_lookAhead ih.2⟩
  | boundedMany r c hr _ ih =>
    refine ⟨nice_many ih.1 r c, C30_many r c _ ih.2 (hr.imp ?_ id)⟩
    rintro rfl; exact ih.1.consumes
  | boundedSkipMany r hr _ ih =>
    refine ⟨nice_skipMany ih.1 r, C30_skip_many r _ ih.2 (hr.imp ?_ id)⟩
    rintro rfl; exact ih.1.consumes
  | boundedManyTill r c hr _ _ ihp ihe =>
    refine ⟨nice_till ihp.1 ihe.1 r c, C30_many_till r c _ _ ihp.2 ihe.2 (hr.imp ?_ id)⟩
    rintro rfl; exact ihp.1.consumes

/-- The calls a body makes on an input of at most `n` items. -/
def At (rk : K → Nat) (g : Option Nat) (n : Nat) (c : K × Input I × σ) : Prop :=
  c.2.1.buf.length ≤ n ∧ (n ≤ c.2.1.buf.length → ∀ r, g = some r → rk c.1 < r)

theorem keeps_of_nice {c : Bool} {p : Parser σ I U N} (h : Nice c p) (n : Nat) :
    Keeps (fun i _ => i.buf.length ≤ n) p := by
  intro i w i' t w' hi e
  have := h i w
  rw [e] at this
  have this : i'.buf.length + c.toNat ≤ i.buf.length := this
  show i'.buf.length ≤ n
  omega

theorem guarded_dep {g : Option Nat} {c : Bool} {x : Fns σ I T E → Parser σ I T' E'} (h : Guarded u rk g c x)
    {q : Fns σ I T E} (hq : ∀ k, Nice (u k) (q k) ∧ Returns (q k)) :
    ∀ n i w, i.buf.length ≤ n → Dep q (At rk g n) (fun q => x q i w) := by
  induction h with
  | weaken _ hg _ ih =>
    refine fun n i w hi => (ih n i w hi).mono fun c hc => ⟨hc.1, fun h r' hr' => ?_⟩
    obtain ⟨r, hr, hle⟩ := hg r' hr'
    exact Nat.lt_of_lt_of_le (hc.2 h r hr) hle
  | call k h => exact fun n i w hi => dep_call k i w ⟨hi, fun _ => h⟩
  | const _ => exact fun n i w hi => dep_const _
  | bind hp _ ihp ihf =>
    exact fun n i w hi => dep_bindP (ihp n i w hi) fun j t w' e =>
      follow (guarded_sound hp hq).1 e hi fun m h => ihf t m j w' h
  | andThen hp _ ihp ihr =>
    exact fun n i w hi => dep_bindP (f := fun q _ => _) (ihp n i w hi) fun j t w' e =>
      follow (guarded_sound hp hq).1 e hi fun m h => ihr m j w' h
  | map f _ ih => exact fun n i w hi => dep_post (ih n i w hi)
  | mapErr f _ ih => exact fun n i w hi => dep_post (ih n i w hi)
  | inspect f _ _ ih => exact fun n i w hi => dep_post (ih n i w hi)
  | effect _ _ ih => exact fun n i w hi => dep_bind (dep_const _) fun y _ => ih y.1 n i y.2 hi
  | mapM f _ _ ih => exact fun n i w hi => dep_post (ih n i w hi)
  | mapErrM f _ _ ih => exact fun n i w hi => dep_post (ih n i w hi)
  | count m c hp ih =>
    exact fun n i w hi => dep_many (fun i w h => ih n i w h)
      (keeps_of_nice (guarded_sound hp hq).1 n) (.exactly m) c hi
  | option t _ ih => exact fun n i w hi => dep_post (ih n i w hi)
  | or _ _ ihp ihr => exact fun n i w hi => dep_or (ihp n i w hi) fun w => ihr n i w hi
  | many c hp ih =>
    exact fun n i w hi => dep_many (fun i w h => ih n i w h)
      (keeps_of_nice (guarded_sound hp hq).1 n) .full c hi
  | many1 c hp ih =>
    exact fun n i w hi => dep_many (fun i w h => ih n i w h)
      (keeps_of_nice (guarded_sound hp hq).1 n) (.from_ 1) c hi
  | sepBy conv c _ hp hs ihp ihs => exact fun n i w hi => sep conv c hp hs hq ihp ihs _ n i w hi
  | sepBy1 conv c _ hp hs ihp ihs => exact fun n i w hi => sep conv c hp hs hq ihp ihs _ n i w hi
  | manyTill c hp _ ihp ihe =>
    exact fun n i w hi => dep_till (Inv := fun i => i.buf.length ≤ n) (fun i w h => ihp n i w h)
      (fun i w h => ihe n i w h) (keeps_of_nice (guarded_sound hp hq).1 n) .full c hi
  | skipMany hp ih =>
    exact fun n i w hi => dep_skipMany (fun i w h => ih n i w h)
      (keeps_of_nice (guarded_sound hp hq).1 n) .full hi
  | skipMany1 hp ih =>
    exact fun n i w hi => dep_skipMany (fun i w h => ih n i w h)
      (keeps_of_nice (guarded_sound hp hq).1 n) (.from_ 1) hi
  | matchedBy _ ih => exact fun n i w hi => dep_post (ih n i w hi)
  | lookAhead _ ih => exact fun n i w hi => dep_post (ih n i w hi)
  | boundedMany r c _ hp ih =>
    exact fun n i w hi => dep_many (fun i w h => ih n i w h)
      (keeps_of_nice (guarded_sound hp hq).1 n) r c hi
  | boundedSkipMany r _ hp ih =>
    exact fun n i w hi => dep_skipMany (fun i w h => ih n i w h)
      (keeps_of_nice (guarded_sound hp hq).1 n) r hi
  | boundedManyTill r c _ hp _ ihp ihe =>
    exact fun n i w hi => dep_till (Inv := fun i => i.buf.length ≤ n) (fun i w h => ihp n i w h)
      (fun i w h => ihe n i w h) (keeps_of_nice (guarded_sound hp hq).1 n) r c hi
where
  follow {g : Option Nat} {c : Bool} {U N R : Type} {p : Parser σ I U N} (hp : Nice c p) {i j : Input I} {t : U} {w w' : σ}
      (e : p i w = .ok (.data j t, w')) {n : Nat} (hi : i.buf.length ≤ n) {q : Fns σ I T E}
      {x : Fns σ I T E → Res R} (h : ∀ m, j.buf.length ≤ m → Dep q (At rk (if c then none else g) m) x) :
      Dep q (At rk g n) x := by
    have hj := hp i w
    rw [e] at hj
    have hj : j.buf.length + c.toNat ≤ i.buf.length := hj
    refine (h (n - c.toNat) (by omega)).mono fun d hd => ?_
    have hd1 := hd.1
    have hd2 := hd.2
    refine ⟨by omega, fun h => ?_⟩
    cases c with
    | true => simp at hj hd1; omega
    | false => exact hd2 (by simp; omega)
  sep {g : Option Nat} {a d : Bool} {T1 T2 E1 V N : Type} (conv : N → E1) (c : Collect T1 T2)
      {p : Fns σ I T E → Parser σ I T1 E1} {s : Fns σ I T E → Parser σ I V N}
      (hp : Guarded u rk g a p) (hs : Guarded u rk (if a then none else g) d s) {q : Fns σ I T E}
      (hq : ∀ k, Nice (u k) (q k) ∧ Returns (q k))
      (ihp : ∀ n i w, i.buf.length ≤ n → Dep q (At rk g n) (fun q => p q i w))
      (ihs : ∀ n i w, i.buf.length ≤ n → Dep q (At rk (if a then none else g) n) (fun q => s q i w)) (r)
      (n : Nat) (i : Input I) (w : σ) (hi : i.buf.length ≤ n) :
      Dep q (At rk g n)
        (fun q => Comb.newLocal false (Bounded.many r c (Comb.sepParser conv (p q) (s q)) i) w) := by
    refine dep_sepBy (Inv := fun i b => i.buf.length + (a && b).toNat ≤ n) conv ?_ ?_ ?_ ?_ r c (by simpa using hi)
    · intro i b w h
      exact ihp n i w (by omega)
    · intro i w h
      rw [Bool.and_true] at h
      refine (ihs (n - a.toNat) i w (by omega)).mono fun d hd => ?_
      have hd1 := hd.1
      have hd2 := hd.2
      refine ⟨by omega, fun h' => ?_⟩
      cases a with
      | true => simp at h hd1; omega
      | false => exact hd2 (by simp; omega)
    · intro i b w i' t w' h e
      have := (guarded_sound hp hq).1 i w
      rw [e] at this
      have this : i'.buf.length + a.toNat ≤ i.buf.length := this
      rw [Bool.and_true]; omega
    · intro i w i' t w' h e
      have := (guarded_sound hs hq).1 i w
      rw [e] at this
      have this : i'.buf.length + d.toNat ≤ i.buf.length := this
      omega

/-- `q` where `P`; elsewhere more input is asked for. -/
def cut (P : K → Input I → Bool) (q : Fns σ I T E) : Fns σ I T E := fun k i w =>
  if P k i then q k i w else .ok (.incomplete 1, w)

/-- If the functions behave on the calls `P`, and a body on `i` makes calls of this kind only, then it
behaves on `i`. -/
theorem solution_step {F : Fns σ I T E → Fns σ I T E}
    (hF : ∀ k, Guarded u rk (some (rk k)) (u k) (fun q => F q k)) {p : Fns σ I T E} (hp : ∀ k, p k = F p k)
    (P : K → Input I → Bool)
    (ih : ∀ k i w, P k i = true → NiceR (u k) i (p k i w) ∧ p k i w ≠ .div) (k : K) (i : Input I) (w : σ)
    (hP : ∀ j i', i'.buf.length ≤ i.buf.length → (i.buf.length ≤ i'.buf.length → rk j < rk k) →
      P j i' = true) : NiceR (u k) i (p k i w) ∧ p k i w ≠ .div := by
  have hc : ∀ k, Nice (u k) (cut P p k) ∧ Returns (cut P p k) := by
    refine fun k => ⟨fun i w => ?_, fun i w => ?_⟩
    · unfold cut
      split
      · rename_i h; exact (ih k i w h).1
      · exact Nat.le_refl _
    · unfold cut
      split
      · rename_i h; exact (ih k i w h).2
      · exact nofun
  have hs := guarded_sound (hF k) hc
  have e : p k i w = F (cut P p) k i w := by
    rw [hp k]
    rcases guarded_dep (hF k) hc _ i w (Nat.le_refl _) with hd | ⟨l, h1, h2⟩
    · exact absurd hd (hs.2 i w)
    · refine h2 p fun c hc => ?_
      unfold cut
      rw [if_pos (hP _ _ (h1 c hc).1.1 fun h => (h1 c hc).1.2 h _ rfl)]
  rw [e]
  exact ⟨hs.1 i w, hs.2 i w⟩

/-- Any functions with guarded bodies behave. -/
theorem solution_sound {F : Fns σ I T E → Fns σ I T E}
    (hF : ∀ k, Guarded u rk (some (rk k)) (u k) (fun q => F q k))
    {p : Fns σ I T E} (hp : ∀ k, p k = F p k) (k : K) (i : Input I) (w : σ) :
    NiceR (u k) i (p k i w) ∧ p k i w ≠ .div := by
  have key : ∀ n r k i w, i.buf.length < n ∨ i.buf.length ≤ n ∧ rk k < r →
      NiceR (u k) i (p k i w) ∧ p k i w ≠ .div := by
    intro n
    induction n with
    | zero =>
      intro r
      induction r with
      | zero => intro k i w h; omega
      | succ r ih =>
        intro k i w h
        refine solution_step hF hp
          (fun k i => decide (i.buf.length < 0 ∨ i.buf.length ≤ 0 ∧ rk k < r))
          (fun k i w h => ih k i w (of_decide_eq_true h)) k i w fun j i' h1 h2 => decide_eq_true ?_
        by_cases h3 : i.buf.length ≤ i'.buf.length
        · have := h2 h3; omega
        · omega
    | succ n ihn =>
      intro r
      induction r with
      | zero => intro k i w h; exact ihn (rk k + 1) k i w (by omega)
      | succ r ih =>
        intro k i w h
        refine solution_step hF hp
          (fun k i => decide (i.buf.length < n + 1 ∨ i.buf.length ≤ n + 1 ∧ rk k < r))
          (fun k i w h => ih k i w (of_decide_eq_true h)) k i w fun j i' h1 h2 => decide_eq_true ?_
        by_cases h3 : i.buf.length ≤ i'.buf.length
        · have := h2 h3; omega
        · omega
  exact key _ 0 k i w (.inl (Nat.lt_succ_self _))

/-- How deep calls are nested. -/
theorem solution_nested {F : Fns σ I T E → Fns σ I T E}
    (hF : ∀ k, Guarded u rk (some (rk k)) (u k) (fun q => F q k)) {R : Nat} (hR : ∀ k, rk k < R)
    {p : Fns σ I T E} (hp : ∀ k, p k = F p k) : ∀ n k i w, R * i.buf.length + rk k < n →
      nested F n k i w = p k i w := by
  have hq : ∀ k, Nice (u k) (p k) ∧ Returns (p k) := fun k =>
    ⟨fun i w => (solution_sound hF hp k i w).1, fun i w => (solution_sound hF hp k i w).2⟩
  intro n
  induction n with
  | zero => intro k i w h; omega
  | succ n ih =>
    intro k i w h
    show F (nested F n) k i w = _
    rcases guarded_dep (hF k) hq _ i w (Nat.le_refl _) with hd | ⟨l, h1, h2⟩
    · exact absurd hd ((guarded_sound (hF k) hq).2 i w)
    · rw [hp k]
      refine h2 _ fun c hc => ih _ _ _ ?_
      have h3 := (h1 c hc).1
      have h4 := hR c.1
      by_cases h5 : i.buf.length ≤ c.2.1.buf.length
      · have h6 := h3.2 h5 _ rfl
        have h7 : c.2.1.buf.length = i.buf.length := Nat.le_antisymm h3.1 h5
        rw [h7]
        omega
      · have h8 : R * (c.2.1.buf.length + 1) ≤ R * i.buf.length := Nat.mul_le_mul_left R (by omega)
        rw [Nat.mul_add] at h8
        omega

/-- Any two solutions agree. -/
theorem solution_unique {F : Fns σ I T E → Fns σ I T E}
    (hF : ∀ k, Guarded u rk (some (rk k)) (u k) (fun q => F q k))
    {p q : Fns σ I T E} (hp : ∀ k, p k = F p k) (hq : ∀ k, q k = F q k) (k : K) (i : Input I) (w : σ) :
    q k i w = p k i w := by
  have hn : ∀ k, Nice (u k) (p k) ∧ Returns (p k) := fun k =>
    ⟨fun i w => (solution_sound hF hp k i w).1, fun i w => (solution_sound hF hp k i w).2⟩
  have step : ∀ k i w, (∀ j i' w', i'.buf.length ≤ i.buf.length →
      (i.buf.length ≤ i'.buf.length → rk j < rk k) → q j i' w' = p j i' w') → q k i w = p k i w := by
    intro k i w h
    rw [hp k, hq k]
    rcases guarded_dep (hF k) hn _ i w (Nat.le_refl _) with hd | ⟨l, h1, h2⟩
    · exact absurd hd ((guarded_sound (hF k) hn).2 i w)
    · exact h2 _ fun c hc => h _ _ _ (h1 c hc).1.1 fun h => (h1 c hc).1.2 h _ rfl
  have key : ∀ n r k i w, i.buf.length < n ∨ i.buf.length ≤ n ∧ rk k < r → q k i w = p k i w := by
    intro n
    induction n with
    | zero =>
      intro r
      induction r with
      | zero => intro k i w h; omega
      | succ r ih =>
        refine fun k i w h => step k i w fun j i' w' h1 h2 => ih j i' w' ?_
        by_cases h3 : i.buf.length ≤ i'.buf.length
        · have := h2 h3; omega
        · omega
    | succ n ihn =>
      intro r
      induction r with
      | zero => intro k i w h; exact ihn (rk k + 1) k i w (by omega)
      | succ r ih =>
        refine fun k i w h => step k i w fun j i' w' h1 h2 => ih j i' w' ?_
        by_cases h3 : i.buf.length ≤ i'.buf.length
        · have := h2 h3; omega
        · omega
  exact key _ 0 k i w (.inl (Nat.lt_succ_self _))

/-! ### Left recursion -/

theorem bind_div {x : Res R} {k : R → Res R'} (h : x = .div) : (x >>= k) = .div := by rw [h]; rfl

theorem core_div {p : Parser τ I U N} {c : Collect U V} (hc : c.start.isLeft = true) {lo : Nat}
    {i : Input I} {w : τ} (h : p i w = .div) :
    Rep.core c p lo none i w = .div := by
  unfold Rep.core
  cases hs : c.start with
  | inr t => rw [hs] at hc; cases hc
  | inl a =>
    dsimp only
    rw [loop_apply]
    refine bind_div ?_
    unfold Rep.step
    dsimp only
    rw [if_neg nofun]
    exact bind_div h

theorem leads_div {k : K} {x : Fns σ I T E → Parser σ I T' E'} (h : Leads k x) {q : Fns σ I T E}
    {i : Input I} {w : σ} (hq : q k i w = .div) : x q i w = .div := by
  induction h with
  | call => exact hq
  | bind _ ih => exact bind_div ih
  | andThen _ ih => exact bind_div ih
  | after t _ ih =>
    show ((_ : Res _) >>= _) = _
    exact bind_div ih
  | map f _ ih => exact bind_div ih
  | mapErr f _ ih => exact bind_div ih
  | option t _ ih => exact bind_div ih
  | or _ ih => exact bind_div ih
  | many c hc _ ih =>
    unfold Comb.many
    dsimp only
    rw [Rep.many_eq (by exact True.intro)]
    exact core_div hc ih
  | many1 c hc _ ih =>
    unfold Comb.many1
    dsimp only
    rw [Rep.many_eq (by exact True.intro)]
    exact core_div hc ih
  | skipMany _ ih =>
    unfold Comb.skipMany
    dsimp only
    rw [Rep.skipMany_eq (by exact True.intro)]
    exact core_div (c := Rep.unit _) rfl ih
  | skipMany1 _ ih =>
    unfold Comb.skipMany1
    dsimp only
    rw [Rep.skipMany_eq (by exact True.intro)]
    exact core_div (c := Rep.unit _) rfl ih
  | sepBy conv c hc _ ih =>
    unfold Comb.sepBy
    dsimp only
    rw [Sep.newLocal_eq, Rep.many_eq (by exact True.intro)]
    refine congrArg Sep.unflag (core_div hc ?_)
    rw [Sep.sepParser_eq, if_neg nofun, ih]
    rfl
  | sepBy1 conv c hc _ ih =>
    unfold Comb.sepBy1
    dsimp only
    rw [Sep.newLocal_eq, Rep.many_eq (by exact True.intro)]
    refine congrArg Sep.unflag (core_div hc ?_)
    rw [Sep.sepParser_eq, if_neg nofun, ih]
    rfl
  | manyTill c hc _ ih =>
    unfold Comb.manyTill
    dsimp only
    rw [Till.manyTill_eq (by exact True.intro)]
    unfold Till.core
    cases hs : c.start with
    | inr t => rw [hs] at hc; cases hc
    | inl a =>
      dsimp only
      rw [loop_apply]
      refine bind_div ?_
      unfold Till.step
      dsimp only
      refine bind_div ?_
      show Till.test _ (0 + 1) _ _ = _
      exact bind_div ih
  | matchedBy _ ih => exact bind_div ih
  | lookAhead _ ih => exact bind_div ih

end Recursive

end Chomp
