import Verif.Spec.Work
import Verif.Lemmas.Recursive
import Verif.Lemmas.Runs

/-
Bounds on what runs add to a counter.
-/

namespace Chomp

open Spec

namespace Work

variable {σ I : Type} {m : σ → Nat}

theorem built {p : Parser σ I T E} (h : Spec.Work m b p) : Built everything p := by
  induction h with
  | silent hb _ => exact hb
  | known hb _ _ => exact hb
  | weaken _ _ _ ih => exact ih
  | bind _ _ _ ihp ihf => exact .bind ihp ihf
  | andThen _ _ ihp ihq => exact .andThen ihp ihq
  | bindAfter _ _ _ _ ihp ihf => exact .bind ihp ihf
  | thenAfter _ _ _ ihp ihq => exact .andThen ihp ihq
  | map f _ ih => exact .map f ih
  | mapErr f _ ih => exact .mapErr f ih
  | inspect f _ _ ih => exact .inspect f nofun ih
  | effect _ _ _ ih => exact .effect nofun ih
  | mapM f _ _ ih => exact .mapM f nofun ih
  | mapErrM f _ _ ih => exact .mapErrM f nofun ih
  | satisfyM v f _ => exact .satisfyM v f nofun
  | satisfyWithM v f p _ _ => exact .satisfyWithM v f p nofun
  | tokenM eq v t _ => exact .tokenM eq v t nofun
  | notTokenM ne v t _ => exact .notTokenM ne v t nofun
  | takeWhileM f _ => exact .takeWhileM f nofun
  | takeWhile1M v f _ => exact .takeWhile1M v f nofun
  | takeTillM f _ => exact .takeTillM f nofun
  | scanM s f _ => exact .scanM s f nofun
  | runScannerM s f _ => exact .runScannerM s f nofun
  | stringM ne v s _ => exact .stringM ne v s nofun nofun
  | count n c _ ih => exact .count n c ih
  | option t _ ih => exact .option t ih
  | or _ _ ihp ihq => exact .or ihp ihq
  | many c _ _ ih => exact .many c ih
  | many1 c _ _ ih => exact .many1 c ih
  | sepBy conv c _ _ _ ihp ihs => exact .sepBy conv c ihp ihs
  | sepBy1 conv c _ _ _ ihp ihs => exact .sepBy1 conv c ihp ihs
  | manyTill c _ _ _ ihp ihe => exact .manyTill c nofun ihp ihe
  | skipMany _ _ ih => exact .skipMany ih
  | skipMany1 _ _ ih => exact .skipMany1 ih
  | matchedBy _ ih => exact .matchedBy ih
  | lookAhead _ ih => exact .lookAhead ih
  | boundedMany r c _ _ ih => exact .boundedMany r c nofun ih
  | limitedMany r c _ _ ih => exact .boundedMany r c nofun ih
  | boundedSkipMany r _ _ ih => exact .boundedSkipMany r nofun ih
  | limitedSkipMany r _ _ ih => exact .boundedSkipMany r nofun ih
  | boundedManyTill r c _ _ _ ihp ihe => exact .boundedManyTill r c rfl nofun ihp ihe
  | limitedManyTill r c _ _ _ ihp ihe => exact .boundedManyTill r c rfl nofun ihp ihe
  | signed v N _ ih => exact .signed v N nofun ih

theorem shrinks {p : Parser σ I T E} (h : Built everything p) {i j : Input I} {w w' : σ} {t : T}
    (e : p i w = .ok (.data j t, w')) : j.buf.length ≤ i.buf.length := by
  have := Built.good h i w
  rw [e] at this
  exact this.2.length_le

theorem mul_grows {b : Nat → Nat} (h : Grows b) (c : Nat) : Grows fun n => (n + c) * b n :=
  fun k n hk => Nat.mul_le_mul (by omega) (h k n hk)

theorem const_grows {b : Nat → Nat} (h : Grows b) (c : Nat) : Grows fun n => c * b n :=
  fun k n hk => Nat.mul_le_mul_left _ (h k n hk)

theorem add_grows {b d : Nat → Nat} (h : Grows b) (h' : Grows d) : Grows fun n => b n + d n :=
  fun k n hk => Nat.add_le_add (h k n hk) (h' k n hk)

theorem succ_grows {b : Nat → Nat} (h : Grows b) : Grows fun n => b n + 1 :=
  fun k n hk => Nat.succ_le_succ (h k n hk)

theorem after_grows {b : Nat → Nat} (h : Grows b) : Grows (after b)
  | 0, _, _ => Nat.zero_le _
  | _ + 1, 0, hk => absurd hk (Nat.not_succ_le_zero _)
  | k + 1, n + 1, hk => h k n (Nat.le_of_succ_le_succ hk)

theorem le_after {b : Nat → Nat} (h : Grows b) : ∀ {k n : Nat}, k < n → b k ≤ after b n
  | _, 0, hk => absurd hk (Nat.not_lt_zero _)
  | k, n + 1, hk => h k n (Nat.le_of_lt_succ hk)

theorem grows {p : Parser σ I T E} (h : Spec.Work m b p) : Grows b := by
  induction h with
  | silent _ _ => exact fun _ _ _ => Nat.le_refl _
  | known _ hg _ => exact hg
  | weaken _ _ hd _ => exact hd
  | bind hd _ _ ihp _ => exact add_grows ihp hd
  | andThen _ _ ihp ihq => exact add_grows ihp ihq
  | bindAfter _ hd _ _ ihp _ => exact add_grows ihp (after_grows hd)
  | thenAfter _ _ _ ihp ihq => exact add_grows ihp (after_grows ihq)
  | map f _ ih => exact ih
  | mapErr f _ ih => exact ih
  | inspect f _ _ ih => exact succ_grows ih
  | effect hb _ _ _ => exact succ_grows hb
  | mapM f _ _ ih => exact succ_grows ih
  | mapErrM f _ _ ih => exact succ_grows ih
  | satisfyM v f _ => exact fun _ _ _ => Nat.le_refl _
  | satisfyWithM v f p _ _ => exact fun _ _ _ => Nat.le_refl _
  | tokenM eq v t _ => exact fun _ _ _ => Nat.le_refl _
  | notTokenM ne v t _ => exact fun _ _ _ => Nat.le_refl _
  | takeWhileM f _ => exact fun _ _ h => h
  | takeWhile1M v f _ => exact fun _ _ h => h
  | takeTillM f _ => exact fun _ _ h => h
  | scanM s f _ => exact fun _ _ h => h
  | runScannerM s f _ => exact fun _ _ h => h
  | stringM ne v s _ => exact fun _ _ _ => Nat.le_refl _
  | count n c _ ih => exact const_grows ih n
  | option t _ ih => exact ih
  | or _ _ ihp ihq => exact add_grows ihp ihq
  | many c _ _ ih => exact mul_grows ih 1
  | many1 c _ _ ih => exact mul_grows ih 1
  | sepBy conv c _ _ _ ihp ihs => exact mul_grows (add_grows ihp ihs) 2
  | sepBy1 conv c _ _ _ ihp ihs => exact mul_grows (add_grows ihp ihs) 2
  | manyTill c _ _ _ ihp ihe => exact mul_grows (add_grows ihp ihe) 1
  | skipMany _ _ ih => exact mul_grows ih 1
  | skipMany1 _ _ ih => exact mul_grows ih 1
  | matchedBy _ ih => exact ih
  | lookAhead _ ih => exact ih
  | boundedMany r c _ _ ih => exact mul_grows ih 1
  | limitedMany r c _ _ ih => exact const_grows ih _
  | boundedSkipMany r _ _ ih => exact mul_grows ih 1
  | limitedSkipMany r _ _ ih => exact const_grows ih _
  | boundedManyTill r c _ _ _ ihp ihe => exact mul_grows (add_grows ihp ihe) 2
  | limitedManyTill r c _ _ _ ihp ihe => exact const_grows (add_grows ihp ihe) _
  | signed v N _ ih => exact ih

/-! ### Runs -/

/-- What `x` adds to the counter is at most `B`. -/
def Adds (m : σ → Nat) (B : Nat) (w : σ) (x : Res (R × σ)) : Prop := ∀ r w', x = .ok (r, w') → m w' ≤ m w + B

theorem Adds.le {B B' : Nat} {w : σ} {x : Res (R × σ)} (h : Adds m B w x) (hB : B ≤ B') : Adds m B' w x :=
  fun r w' e => Nat.le_trans (h r w' e) (Nat.add_le_add_left hB _)

theorem adds_ok (r : R) (w : σ) (B : Nat) : Adds m B w (.ok (r, w)) := by
  intro r' w' e
  cases e
  omega

theorem adds_bind {B B' : Nat} {w : σ} {x : Res (A × σ)} {k : A → M σ R} (hx : Adds m B w x)
    (hk : ∀ a w', x = .ok (a, w') → Adds m B' w' (k a w')) : Adds m (B + B') w (x >>= fun q => k q.1 q.2) := by
  intro r w' e
  match x, hx, hk, e with
  | .ok (a, w1), hx, hk, e =>
    have h1 := hx a w1 rfl
    have h2 := hk a w1 rfl r w' e
    omega

/-- What comes afterwards adds nothing. -/
theorem adds_post {B : Nat} {w : σ} {x : Res (A × σ)} {k : A → M σ R} (hx : Adds m B w x)
    (hk : ∀ a w', Adds m 0 w' (k a w')) : Adds m B w (x >>= fun q => k q.1 q.2) :=
  adds_bind (B' := 0) hx fun a w' _ => hk a w'

theorem adds_loop {step : S → M τ (S ⊕ R)} {m : τ → Nat} (Inv : S → τ → Prop) (Φ : S → τ → Nat)
    (hc : ∀ s w s' w', Inv s w → step s w = .ok (.inl s', w') → Inv s' w' ∧ m w' + Φ s' w' ≤ m w + Φ s w)
    (hr : ∀ s w r w', Inv s w → step s w = .ok (.inr r, w') → m w' ≤ m w + Φ s w)
    {s : S} {w : τ} (h : Inv s w) : Adds m (Φ s w) w (loop step s w) := by
  intro r w' e
  have run := loop_eq_ok.mp e
  clear e
  generalize ho : Res.ok (r, w') = o at run
  induction run with
  | brk e => cases ho; exact hr _ _ _ _ h e
  | panic _ => cases ho
  | ub _ => cases ho
  | cont e _ ih =>
    obtain ⟨h1, h2⟩ := hc _ _ _ _ h e
    have := ih h1 ho
    omega

/-- A run of one iteration: what is paid for, and what is left for the iterations after it. -/
def Pays (m : τ → Nat) (Inv : Input I → τ → Prop) (Φ : Input I → τ → Nat) (p : Parser τ I U E) : Prop :=
  ∀ i w r w', Inv i w → p i w = .ok (r, w') → m w' ≤ m w + Φ i w ∧
    ∀ j u, r = .data j u → Inv j w' ∧ m w' + Φ j w' ≤ m w + Φ i w

theorem adds_core {m : τ → Nat} {Inv : Input I → τ → Prop} {Φ : Input I → τ → Nat} {p : Parser τ I U E}
    (hp : Pays m Inv Φ p) (c : Collect U T) (lo : Nat) (hi : Option Nat) {i : Input I} {w : τ} (h : Inv i w) :
    Adds m (Φ i w) w (Rep.core c p lo hi i w) := by
  unfold Rep.core
  cases c.start with
  | inr t => exact adds_ok _ _ _
  | inl a =>
    refine adds_loop (S := c.Acc × Input I × Nat × Option Nat) (fun s w => Inv s.2.1 w) (fun s w => Φ s.2.1 w) ?_ ?_ h
    · intro s w s' w' h e
      obtain ⟨_, _, v, hv⟩ := Rep.step_inl e
      exact (hp _ _ _ _ h hv).2 _ _ rfl
    · rintro ⟨a, i, lo, hi⟩ w r w' h e
      unfold Rep.step at e
      dsimp only at e h ⊢
      split at e
      · cases e; omega
      · match hx : p i w, e with
        | .ok (x, w1), e =>
          have := (hp _ _ _ _ h hx).1
          match x, e with
          | .data b v, e =>
            dsimp only [Res.bind_ok] at e
            cases hf : c.feed a v with
            | inl a' => rw [hf] at e; cases e
            | inr t => rw [hf] at e; cases e; exact this
          | .error _ _, e => cases e; exact this
          | .incomplete _, e => cases e; exact this

theorem adds_core_limit {m : τ → Nat} {n B : Nat} {p : Parser τ I U E}
    (hp : ∀ i w, i.buf.length ≤ n → Adds m B w (p i w))
    (hs : ∀ i w j u w', p i w = .ok (.data j u, w') → j.buf.length ≤ i.buf.length) (c : Collect U T) (lo k : Nat)
    {i : Input I} {w : τ} (h : i.buf.length ≤ n) : Adds m (k * B) w (Rep.core c p lo (some k) i w) := by
  unfold Rep.core
  cases c.start with
  | inr t => exact adds_ok _ _ _
  | inl a =>
    refine adds_loop (S := c.Acc × Input I × Nat × Option Nat) (fun s _ => s.2.1.buf.length ≤ n ∧ ∃ k, s.2.2.2 = some k)
      (fun s _ => s.2.2.2.getD 0 * B) ?_ ?_ ⟨h, k, rfl⟩
    · rintro s w s' w' ⟨h, k, hk⟩ e
      obtain ⟨h1, h2, v, hv⟩ := Rep.step_inl e
      rw [hk] at h1 h2
      have := hp _ _ h _ _ hv
      have h3 := hs _ _ _ _ _ hv
      refine ⟨⟨by omega, k - 1, h2⟩, ?_⟩
      rw [h2, hk]
      cases k with
      | zero => exact absurd rfl h1
      | succ k =>
        show m w' + k * B ≤ m w + (k + 1) * B
        rw [Nat.succ_mul]
        omega
    · rintro ⟨a, i, lo, hi⟩ w r w' ⟨h, k, hk⟩ e
      unfold Rep.step at e
      dsimp only at e h hk ⊢
      subst hk
      split at e
      · cases e; omega
      · rename_i h1
        match hx : p i w, e with
        | .ok (x, w1), e =>
          have h2 := hp _ _ h _ _ hx
          have h3 : m w1 ≤ m w + k * B := by
            cases k with
            | zero => exact absurd rfl h1
            | succ k => rw [Nat.succ_mul]; omega
          match x, e with
          | .data b v, e =>
            dsimp only [Res.bind_ok] at e
            cases hf : c.feed a v with
            | inl a' => rw [hf] at e; cases e
            | inr t => rw [hf] at e; cases e; exact h3
          | .error _ _, e => cases e; exact h3
          | .incomplete _, e => cases e; exact h3

theorem adds_skip {m : τ → Nat} {Inv : Input I → τ → Prop} {Φ : Input I → τ → Nat} {p : Parser τ I U E}
    (hp : Pays m Inv Φ p) (z : Bool) (lo hi : Nat) {i : Input I} {w : τ} (h : Inv i w) :
    Adds m (Φ i w) w (loop (Rep.skipStep z p) (i, lo, hi) w) := by
  refine adds_loop (S := Input I × Nat × Nat) (fun s w => Inv s.1 w) (fun s w => Φ s.1 w) ?_ ?_ h
  · rintro ⟨i, lo, hi⟩ w s' w' h e
    unfold Rep.skipStep at e
    dsimp only at e h
    split at e
    · cases e
    · match hx : p i w, e with
      | .ok (.data b v, w1), e => cases e; exact (hp _ _ _ _ h hx).2 _ _ rfl
  · rintro ⟨i, lo, hi⟩ w r w' h e
    unfold Rep.skipStep at e
    dsimp only at e h ⊢
    split at e
    · cases e; omega
    · match hx : p i w, e with
      | .ok (.error b v, w1), e => cases e; exact (hp _ _ _ _ h hx).1
      | .ok (.incomplete n, w1), e => cases e; exact (hp _ _ _ _ h hx).1

theorem adds_skip_limit {m : τ → Nat} {n B : Nat} {p : Parser τ I U E}
    (hp : ∀ i w, i.buf.length ≤ n → Adds m B w (p i w))
    (hs : ∀ i w j u w', p i w = .ok (.data j u, w') → j.buf.length ≤ i.buf.length) (z : Bool) (lo k : Nat)
    {i : Input I} {w : τ} (h : i.buf.length ≤ n) : Adds m (k * B) w (loop (Rep.skipStep z p) (i, lo, k) w) := by
  refine adds_loop (S := Input I × Nat × Nat) (fun s _ => s.1.buf.length ≤ n) (fun s _ => s.2.2 * B) ?_ ?_ h
  · rintro ⟨i, lo, hi⟩ w s' w' h e
    unfold Rep.skipStep at e
    dsimp only at e h
    split at e
    · cases e
    · rename_i h0
      match hx : p i w, e with
      | .ok (.data b v, w1), e =>
        have h1 := hp _ _ h _ _ hx
        have h2 := hs _ _ _ _ _ hx
        cases e
        refine ⟨by dsimp only; omega, ?_⟩
        dsimp only
        obtain ⟨k, rfl⟩ : ∃ k, hi = k + 1 := ⟨hi - 1, by omega⟩
        rw [Nat.succ_mul, Nat.add_sub_cancel]
        omega
  · rintro ⟨i, lo, hi⟩ w r w' h e
    unfold Rep.skipStep at e
    dsimp only at e h ⊢
    split at e
    · cases e; omega
    · rename_i h0
      obtain ⟨k, rfl⟩ : ∃ k, hi = k + 1 := ⟨hi - 1, by omega⟩
      rw [Nat.succ_mul]
      match hx : p i w, e with
      | .ok (.error b v, w1), e =>
        have h1 := hp _ _ h _ _ hx
        cases e; dsimp only; omega
      | .ok (.incomplete n, w1), e =>
        have h1 := hp _ _ h _ _ hx
        cases e; dsimp only; omega

/-! ### Parsers which consume -/

/-- Runs on at most `n` items. -/
def Upto (m : τ → Nat) (n B : Nat) (p : Parser τ I U E) : Prop := ∀ i w, i.buf.length ≤ n → Adds m B w (p i w)

def Shrinks (p : Parser τ I U E) : Prop := ∀ i w j u w', p i w = .ok (.data j u, w') → j.buf.length ≤ i.buf.length

theorem pays_consumes {m : τ → Nat} {n B : Nat} {p : Parser τ I U E} (hp : Upto m n B p) (hc : Consumes p) :
    Pays m (fun i _ => i.buf.length ≤ n) (fun i _ => (i.buf.length + 1) * B) p := by
  intro i w r w' h e
  have h1 := hp i w h r w' e
  refine ⟨by dsimp only; rw [Nat.succ_mul]; omega, ?_⟩
  rintro j u rfl
  have h2 := hc _ _ _ _ _ e
  have h3 : (j.buf.length + 1) * B ≤ i.buf.length * B := Nat.mul_le_mul_right _ h2
  refine ⟨by omega, ?_⟩
  dsimp only
  rw [Nat.succ_mul i.buf.length]
  omega

theorem adds_many {m : τ → Nat} {n B : Nat} {p : Parser τ I U E} (hp : Upto m n B p) (hc : Consumes p) (r)
    (c : Collect U T) {i : Input I} {w : τ} (h : i.buf.length ≤ n) :
    Adds m ((i.buf.length + 1) * B) w (Bounded.many r c p i w) := by
  rcases Rep.many_shapes r c p with ⟨lo, hi, e⟩ | ⟨hn, e⟩
  · rw [e]; exact adds_core (pays_consumes hp hc) c lo hi h
  · rw [e]; exact fun _ _ h => nomatch h

theorem adds_many_limit {m : τ → Nat} {n B k : Nat} {p : Parser τ I U E} (hp : Upto m n B p) (hs : Shrinks p) {r}
    (hr : limit r = some k) (c : Collect U T) {i : Input I} {w : τ} (h : i.buf.length ≤ n) :
    Adds m (k * B) w (Bounded.many r c p i w) := by
  by_cases ho : Rep.ok r
  · rw [Rep.many_eq ho, show Rep.max r = some k by cases r <;> exact hr]
    exact adds_core_limit hp hs c _ k h
  · rcases Rep.many_shapes r c p with ⟨lo, hi, e⟩ | ⟨hn, e⟩
    · cases r with
      | range a b =>
        have h' : ¬ a ≤ b := ho
        simp [Bounded.many, Bounded.manyWith, Bounded.manyRange, h']
        exact fun _ _ h => nomatch h
      | _ => exact absurd True.intro ho
    · rw [e]; exact fun _ _ h => nomatch h

theorem adds_skipMany {m : τ → Nat} {n B : Nat} {p : Parser τ I U E} (hp : Upto m n B p) (hc : Consumes p) (r)
    {i : Input I} {w : τ} (h : i.buf.length ≤ n) :
    Adds m ((i.buf.length + 1) * B) w (Bounded.skipMany r p i w) := by
  cases r with
  | range a b =>
    by_cases hab : a ≤ b
    · show Adds _ _ _ (Bounded.skipManyRange a b p i w)
      rw [Rep.skipManyRange_eq hab]
      exact adds_skip (pays_consumes hp hc) _ _ _ h
    · simp [Bounded.skipMany, Bounded.skipManyRange, hab]
      exact fun _ _ h => nomatch h
  | exactly k =>
    show Adds _ _ _ (Bounded.skipManyExactly k p i w)
    rw [Rep.skipManyExactly_loop]
    exact adds_skip (pays_consumes hp hc) _ _ _ h
  | from_ k => rw [Rep.skipMany_eq (by exact True.intro)]; exact adds_core (pays_consumes hp hc) _ _ _ h
  | full => rw [Rep.skipMany_eq (by exact True.intro)]; exact adds_core (pays_consumes hp hc) _ _ _ h
  | to k => rw [Rep.skipMany_eq (by exact True.intro)]; exact adds_core (pays_consumes hp hc) _ _ _ h

theorem adds_skipMany_limit {m : τ → Nat} {n B k : Nat} {p : Parser τ I U E} (hp : Upto m n B p) (hs : Shrinks p) {r}
    (hr : limit r = some k) {i : Input I} {w : τ} (h : i.buf.length ≤ n) :
    Adds m (k * B) w (Bounded.skipMany r p i w) := by
  cases r with
  | range a b =>
    cases hr
    by_cases hab : a ≤ b
    · show Adds _ _ _ (Bounded.skipManyRange a b p i w)
      rw [Rep.skipManyRange_eq hab]
      exact adds_skip_limit hp hs _ _ _ h
    · simp [Bounded.skipMany, Bounded.skipManyRange, hab]
      exact fun _ _ h => nomatch h
  | exactly k =>
    cases hr
    show Adds _ _ _ (Bounded.skipManyExactly k p i w)
    rw [Rep.skipManyExactly_loop]
    exact adds_skip_limit hp hs _ _ _ h
  | from_ k => cases hr
  | full => cases hr
  | to k =>
    cases hr
    rw [Rep.skipMany_eq (by exact True.intro)]
    exact adds_core_limit hp hs _ _ _ h

theorem adds_test {m : τ → Nat} {D : Nat} {e : Parser τ I V N} {i : Input I} (he : ∀ w, Adds m D w (e i w)) :
    ∀ k w, Adds m (k * D) w (Till.test e k i w) := by
  intro k
  induction k with
  | zero => intro w; exact adds_ok _ _ _
  | succ k ih =>
    intro w r w' h
    unfold Till.test at h
    rw [Nat.succ_mul]
    match hx : e i w, h with
    | .ok (x, w1), h =>
      have h1 := he w _ _ hx
      match x, h with
      | .data b _, h => cases h; dsimp only; omega
      | .error _ _, h =>
        have := ih w1 r w' h
        omega
      | .incomplete _, h =>
        have := ih w1 r w' h
        omega

/-- One iteration: the end is tried at most once, unless it is the last one. -/
theorem till_step {m : τ → Nat} {n B D : Nat} {p : Parser τ I U E} {e : Parser τ I V N} (hp : Upto m n B p)
    (he : Upto m n D e) {c : Collect U T} {last : Nat} {good} {acc : c.Acc} {i : Input I} {lo : Nat} {hi : Option Nat}
    {w : τ} {x} {w' : τ} (h : i.buf.length ≤ n) (h1 : 1 ≤ last)
    (hx : Till.step c p e last good (acc, i, lo, hi) w = .ok (x, w')) :
    m w' ≤ m w + last * D + B ∧ (hi ≠ some 0 → m w' ≤ m w + D + B) ∧ (hi = some 0 → m w' ≤ m w + last * D) := by
  have hD : D ≤ last * D := Nat.le_mul_of_pos_left _ h1
  unfold Till.step at hx
  dsimp only at hx
  match ht : Till.test e (Till.triesAt last lo hi) i w, hx with
  | .ok (y, w1), hx =>
    have h2 := adds_test (fun w => he i w h) _ _ _ _ ht
    have h3 : hi = some 0 → m w1 ≤ m w + last * D := by
      intro h0
      subst h0
      unfold Till.triesAt at h2
      rw [if_pos rfl] at h2
      split at h2
      · exact h2
      · omega
    have h4 : hi ≠ some 0 → m w1 ≤ m w + D := by
      intro h0
      unfold Till.triesAt at h2
      rw [if_neg h0] at h2
      split at h2 <;> omega
    have h5 : m w1 ≤ m w + last * D := by
      by_cases h0 : hi = some 0
      · exact h3 h0
      · have := h4 h0; omega
    match y, hx with
    | some b, hx =>
      dsimp only [Res.bind_ok] at hx
      split at hx
      · cases hx
        exact ⟨by omega, fun h0 => by have := h4 h0; omega, h3⟩
      · cases hx
    | none, hx =>
      dsimp only [Res.bind_ok] at hx
      by_cases h0 : hi = some 0
      · rw [if_pos h0] at hx
        cases hx
        exact ⟨by omega, fun h0 => by have := h4 h0; omega, h3⟩
      · rw [if_neg h0] at hx
        match hr : p i w1, hx with
        | .ok (z, w2), hx =>
          have h6 := hp _ _ h _ _ hr
          have h7 := h4 h0
          have h8 : w' = w2 := by
            match z, hx with
            | .data b v, hx =>
              dsimp only [Res.bind_ok] at hx
              cases hf : c.feed acc v <;> rw [hf] at hx <;> cases hx <;> rfl
            | .error _ _, hx => cases hx; rfl
            | .incomplete _, hx => cases hx; rfl
          subst h8
          exact ⟨by omega, fun _ => by omega, fun h => absurd h h0⟩

theorem adds_till {m : τ → Nat} {n B D : Nat} {p : Parser τ I U E} {e : Parser τ I V N} (hp : Upto m n B p)
    (he : Upto m n D e) (hc : Consumes p) (r) (c : Collect U T) {i : Input I} {w : τ} (h : i.buf.length ≤ n) :
    Adds m (i.buf.length * (B + D) + (B + Till.last r * D)) w (Bounded.manyTill r c p e i w) := by
  by_cases ho : Rep.ok r
  · rw [Till.manyTill_eq ho]
    have h1 : 1 ≤ Till.last r := by cases r <;> simp [Till.last]
    have hD : D ≤ Till.last r * D := Nat.le_mul_of_pos_left _ h1
    unfold Till.core
    cases c.start with
    | inr t => exact adds_ok _ _ _
    | inl acc =>
      refine adds_loop (S := c.Acc × Input I × Nat × Option Nat) (fun s _ => s.2.1.buf.length ≤ n)
        (fun s _ => s.2.1.buf.length * (B + D) + (B + Till.last r * D)) ?_ ?_ h
      · rintro ⟨a, i, lo, hi⟩ w s' w' h e
        obtain ⟨h0, _, v, w0, hv⟩ := Till.step_inl e
        have h2 := (till_step hp he h h1 e).2.1 h0
        have h3 := hc _ _ _ _ _ hv
        dsimp only at h3 h ⊢
        have h4 : (s'.2.1.buf.length + 1) * (B + D) ≤ i.buf.length * (B + D) := Nat.mul_le_mul_right _ h3
        rw [Nat.succ_mul] at h4
        exact ⟨by omega, by omega⟩
      · rintro ⟨a, i, lo, hi⟩ w r' w' h e
        have h2 := (till_step hp he h h1 e).1
        dsimp only at h ⊢
        omega
  · cases r with
    | range a b =>
      have h' : ¬ a ≤ b := ho
      simp [Bounded.manyTill, Bounded.manyTillWith, Bounded.manyTillRange, h']
      exact fun _ _ h => nomatch h
    | _ => exact absurd True.intro ho

theorem adds_till_limit {m : τ → Nat} {n B D k : Nat} {p : Parser τ I U E} {e : Parser τ I V N} (hp : Upto m n B p)
    (he : Upto m n D e) (hs : Shrinks p) {r} (hr : limit r = some k) (c : Collect U T) {i : Input I} {w : τ}
    (h : i.buf.length ≤ n) :
    Adds m (k * (B + D) + (B + Till.last r * D)) w (Bounded.manyTill r c p e i w) := by
  by_cases ho : Rep.ok r
  · rw [Till.manyTill_eq ho, show Rep.max r = some k by cases r <;> exact hr]
    have h1 : 1 ≤ Till.last r := by cases r <;> simp [Till.last]
    have hD : D ≤ Till.last r * D := Nat.le_mul_of_pos_left _ h1
    unfold Till.core
    cases c.start with
    | inr t => exact adds_ok _ _ _
    | inl acc =>
      refine adds_loop (S := c.Acc × Input I × Nat × Option Nat)
        (fun s _ => s.2.1.buf.length ≤ n ∧ ∃ k, s.2.2.2 = some k)
        (fun s _ => s.2.2.2.getD 0 * (B + D) + (B + Till.last r * D)) ?_ ?_ ⟨h, k, rfl⟩
      · rintro ⟨a, i, lo, hi⟩ w s' w' ⟨h, k, hk⟩ e
        obtain ⟨h0, h5, v, w0, hv⟩ := Till.step_inl e
        have h2 := (till_step hp he h h1 e).2.1 h0
        have h3 := hs _ _ _ _ _ hv
        dsimp only at h3 h hk h0 h5 ⊢
        subst hk
        rw [h5]
        obtain ⟨j, rfl⟩ : ∃ j, k = j + 1 := by
          cases k with
          | zero => exact absurd rfl h0
          | succ j => exact ⟨j, rfl⟩
        refine ⟨⟨by omega, j, rfl⟩, ?_⟩
        show m w' + (j * (B + D) + _) ≤ m w + ((j + 1) * (B + D) + _)
        rw [Nat.succ_mul]
        omega
      · rintro ⟨a, i, lo, hi⟩ w r' w' ⟨h, k, hk⟩ e
        have h2 := (till_step hp he h h1 e).1
        dsimp only at h ⊢
        omega
  · cases r with
    | range a b =>
      have h' : ¬ a ≤ b := ho
      simp [Bounded.manyTill, Bounded.manyTillWith, Bounded.manyTillRange, h']
      exact fun _ _ h => nomatch h
    | _ => exact absurd True.intro ho

theorem adds_sepThen {B D n : Nat} {p : Parser σ I U E} {sep : Parser σ I V N} (conv : N → E) (hp : Upto m n B p)
    (hq : Upto m n D sep) (hs : Shrinks sep) {i : Input I} {w : σ} (h : i.buf.length ≤ n) :
    Adds m (B + D) w (sepThen conv p sep i w) := by
  intro r w' e
  unfold sepThen at e
  match hx : sep i w, e with
  | .ok (.data k v, w1), e =>
    have h1 := hq _ _ h _ _ hx
    have h2 := hp k w1 (Nat.le_trans (hs _ _ _ _ _ hx) h) r w' e
    omega
  | .ok (.error _ _, w1), e =>
    have h1 := hq _ _ h _ _ hx
    cases e; omega
  | .ok (.incomplete _, w1), e =>
    have h1 := hq _ _ h _ _ hx
    cases e; omega

theorem flag_ok {f : Bool} {x : Res (ParseResult I U E × σ)} {r : ParseResult I U E} {w : σ} {b : Bool}
    (h : Sep.flag f x = .ok (r, (w, b))) : x = .ok (r, w) := by
  match x, h with
  | .ok (.data _ _, _), h => cases h; rfl
  | .ok (.error _ _, _), h => cases h; rfl
  | .ok (.incomplete _, _), h => cases h; rfl

theorem adds_sep {B D n : Nat} {p : Parser σ I U E} {sep : Parser σ I V N} (conv : N → E) (hp : Upto m n B p)
    (hq : Upto m n D sep) (hps : Shrinks p) (hs : Shrinks sep) (hc : Consumes p ∨ Consumes sep) (r)
    (c : Collect U T) {i : Input I} {w : σ} (h : i.buf.length ≤ n) :
    Adds m ((i.buf.length + 2) * (B + D)) w
      (Comb.newLocal false (Bounded.many r c (Comb.sepParser conv p sep) i) w) := by
  intro x w' e
  rw [Sep.newLocal_eq] at e
  match hx : Bounded.many r c (Comb.sepParser conv p sep) i (w, false), e with
  | .ok (y, (w1, b)), e =>
    cases e
    have hpay : Pays (fun v : σ × Bool => m v.1) (fun i _ => i.buf.length ≤ n)
        (fun i v => (i.buf.length + if v.2 then 1 else 2) * (B + D)) (Comb.sepParser conv p sep) := by
      rintro i ⟨w, f⟩ r ⟨w', f'⟩ h e
      rw [Sep.sepParser_eq] at e
      dsimp only
      cases f with
      | false =>
        rw [if_neg (by decide)] at e
        have e' := flag_ok e
        have h1 := hp _ _ h _ _ e'
        refine ⟨?_, ?_⟩
        · rw [if_neg (by decide), Nat.succ_mul]; omega
        · rintro j u rfl
          obtain ⟨_, rfl⟩ := Sep.flag_data.mp e
          have h2 := hps _ _ _ _ _ e'
          refine ⟨by omega, ?_⟩
          rw [if_pos rfl, if_neg (by decide)]
          have h3 : (j.buf.length + 1) * (B + D) ≤ (i.buf.length + 1) * (B + D) := Nat.mul_le_mul_right _ (by omega)
          rw [Nat.succ_mul (i.buf.length + 1)]
          omega
      | true =>
        rw [if_pos rfl] at e
        have e' := flag_ok e
        have h1 := adds_sepThen conv hp hq hs h _ _ e'
        refine ⟨?_, ?_⟩
        · rw [if_pos rfl, Nat.succ_mul]; omega
        · rintro j u rfl
          obtain ⟨_, rfl⟩ := Sep.flag_data.mp e
          have h2 : j.buf.length < i.buf.length := by
            unfold sepThen at e'
            match hx : sep i w, e' with
            | .ok (.data k v, w1), e' =>
              have h4 := hs _ _ _ _ _ hx
              have h5 := hps _ _ _ _ _ e'
              rcases hc with hc | hc
              · have := hc _ _ _ _ _ e'; omega
              · have := hc _ _ _ _ _ hx; omega
          refine ⟨by omega, ?_⟩
          rw [if_pos rfl]
          have h3 : (j.buf.length + 1) * (B + D) ≤ i.buf.length * (B + D) := Nat.mul_le_mul_right _ h2
          rw [Nat.succ_mul i.buf.length]
          omega
    rcases Rep.many_shapes r c (Comb.sepParser conv p sep) with ⟨lo, hi, e⟩ | ⟨hn, e⟩
    · rw [e] at hx
      exact adds_core hpay c lo hi (w := (w, false)) h _ _ hx
    · rw [e] at hx; cases hx

/-! ### Parsers with closures -/

def AddsM (m : σ → Nat) (B : Nat) (g : M σ A) : Prop := ∀ w, Adds m B w (g w)

theorem addsM_pure (x : A) (B : Nat) : AddsM m B (pure x : M σ A) := fun _ => adds_ok _ _ _

theorem addsM_bind {B B' : Nat} {x : M σ A} {k : A → M σ R} (hx : AddsM m B x) (hk : ∀ a, AddsM m B' (k a)) :
    AddsM m (B + B') (x >>= k) := fun w => adds_bind (k := k) (hx w) fun a w' _ => hk a w'

theorem addsM_post {B : Nat} {x : M σ A} {k : A → M σ R} (hx : AddsM m B x) (hk : ∀ a, AddsM m 0 (k a)) :
    AddsM m B (x >>= k) := addsM_bind hx hk

theorem addsM_sliceFrom (b : List I) (n : Nat) : AddsM m 0 (sliceFrom b n : M σ _) := by
  intro w y w' h
  unfold sliceFrom at h
  split at h <;> cases h
  omega

theorem addsM_sliceTo (b : List I) (n : Nat) : AddsM m 0 (sliceTo b n : M σ _) := by
  intro w y w' h
  unfold sliceTo at h
  split at h <;> cases h
  omega

theorem addsM_lift (x : Res A) : AddsM m 0 (M.lift x : M σ A) := by
  intro w y w' h
  cases x <;> cases h
  omega

theorem adds_position {f : I → M σ Bool} (hf : ∀ c, Counted m (f c)) : ∀ (b : List I),
    AddsM m b.length (Closures.position f b) := by
  intro b
  induction b with
  | nil => exact addsM_pure _ _
  | cons c b ih =>
    unfold Closures.position
    rw [List.length_cons, Nat.add_comm]
    refine addsM_bind (hf c) fun a => ?_
    cases a with
    | true => exact addsM_pure _ _
    | false => exact addsM_post ih fun a => addsM_pure _ _

theorem adds_scanPosition {f : S → I → M σ (Option S)} (hf : ∀ s c, Counted m (f s c)) : ∀ (b : List I) (s : Option S),
    AddsM m b.length (Closures.scanPosition f s b) := by
  intro b
  induction b with
  | nil => intro s; cases s <;> exact addsM_pure _ _
  | cons c b ih =>
    intro s
    cases s with
    | none => exact fun _ _ _ h => nomatch h
    | some s =>
      unfold Closures.scanPosition
      rw [List.length_cons, Nat.add_comm]
      refine addsM_bind (hf s c) fun a => ?_
      cases a with
      | none => exact addsM_pure _ _
      | some a => exact addsM_post (ih _) fun a => addsM_pure _ _

theorem adds_runScannerPosition {f : S → I → M σ (Option S)} (hf : ∀ s c, Counted m (f s c)) : ∀ (b : List I) (s : S),
    AddsM m b.length (Closures.runScannerPosition f s b) := by
  intro b
  induction b with
  | nil => intro s; exact addsM_pure _ _
  | cons c b ih =>
    intro s
    unfold Closures.runScannerPosition
    rw [List.length_cons, Nat.add_comm]
    refine addsM_bind (hf s c) fun a => ?_
    cases a with
    | none => exact addsM_pure _ _
    | some a => exact addsM_post (ih _) fun a => addsM_pure _ _

theorem adds_mismatch {ne : I → I → M σ Bool} (hf : ∀ s c, Counted m (ne s c)) : ∀ (s d : List I),
    AddsM m s.length (Closures.mismatch ne s d) := by
  intro s
  induction s with
  | nil => intro d; exact addsM_pure _ _
  | cons a s ih =>
    intro d
    cases d with
    | nil => exact addsM_pure _ _
    | cons c d =>
      unfold Closures.mismatch
      rw [List.length_cons, Nat.add_comm]
      refine addsM_bind (hf a c) fun x => ?_
      cases x with
      | true => exact addsM_pure _ _
      | false => exact addsM_post (ih d) fun a => addsM_pure _ _

theorem addsM_slices (b : List I) (n : Nat) (g : List I → List I → ParseResult I T E) :
    AddsM m 0 (do let r ← sliceFrom b n; let t ← sliceTo b n; pure (g r t) : M σ _) :=
  addsM_post (addsM_sliceFrom _ _) fun _ => addsM_post (addsM_sliceTo _ _) fun _ => addsM_pure _ _

theorem adds_head {g : I → M σ Bool} (hg : ∀ c, Counted m (g c)) (i : Input I) (e : Error I) :
    AddsM m 1 (match i.buf with
      | [] => pure (i.incomplete 1)
      | c :: _ => do
        if ← g c then do
          let r ← sliceFrom i.buf 1
          pure ((i.replace r).ret c)
        else pure (i.err e) : M σ (ParseResult I I (Error I))) := by
  match i.buf with
  | [] => exact addsM_pure _ _
  | c :: r =>
    refine addsM_post (hg c) fun a => ?_
    cases a with
    | true => exact addsM_post (addsM_sliceFrom _ _) fun _ => addsM_pure _ _
    | false => exact addsM_pure _ _

/-- `is_last_slice` decides. -/
theorem addsM_last (b : List I) (x : Bool) (g : List I → ParseResult I T E) (r : ParseResult I T E) :
    AddsM m 0 (if x = true then do let z ← sliceTo b 0; pure (g z) else pure r : M σ _) := by
  cases x with
  | true => exact addsM_post (addsM_sliceTo _ _) fun _ => addsM_pure _ _
  | false => exact addsM_pure _ _

theorem adds_bindP {B B' : Nat} {p : Parser σ I T E} {conv : E → V} {f : T → Parser σ I U V} {i : Input I} {w : σ}
    (hp : Adds m B w (p i w)) (hf : ∀ j t w', p i w = .ok (.data j t, w') → Adds m B' w' (f t j w')) :
    Adds m (B + B') w (Parser.bind conv p f i w) := by
  unfold Parser.bind
  rw [M.bind_apply]
  refine adds_bind (k := fun r => r.bind conv fun i t => f t i) hp fun a w' e => ?_
  cases a with
  | data j t => rw [ParseResult.bind_data]; exact hf j t w' e
  | error b e => exact adds_ok _ _ _
  | incomplete n => exact adds_ok _ _ _

theorem adds_sign (v : Bool) (f : UInt8 → Bool) (g : UInt8 → T) (t : T) (i : Input UInt8) :
    AddsM m 0 (Comb.option ((Parsers.satisfy v f : Parser σ UInt8 _ _).map g) t i) := by
  refine addsM_post (addsM_post (fun w => ?_) fun a => ?_) fun a => ?_
  · rw [Parsers.satisfy_eq]
    cases i.buf with
    | nil => exact adds_ok _ _ _
    | cons c r => dsimp only; split <;> exact adds_ok _ _ _
  · cases a <;> exact addsM_pure _ _
  · cases a with
    | incomplete n => dsimp only; split <;> exact addsM_pure _ _
    | _ => exact addsM_pure _ _

theorem adds {p : Parser σ I T E} (h : Spec.Work m b p) : ∀ i, AddsM m (b i.buf.length) (p i) := by
  have sh : ∀ {I T E : Type} {b : Nat → Nat} {p : Parser σ I T E}, Spec.Work m b p → Shrinks p :=
    fun h _ _ _ _ _ e => shrinks (built h) e
  have up : ∀ {I T E : Type} {b : Nat → Nat} {p : Parser σ I T E}, Spec.Work m b p →
      (∀ i, AddsM m (b i.buf.length) (p i)) → ∀ n, Upto m n (b n) p :=
    fun h hp n i w hn => (hp i w).le (grows h _ _ hn)
  induction h with
  | silent _ hs => exact fun i w r w' e => hs i w r w' e
  | known _ _ hk => exact fun i w r w' e => hk i w r w' e
  | weaken _ hle _ ih => exact fun i w => (ih i w).le (hle _)
  | bind hd hp hf ihp ihf =>
    exact fun i w => adds_bindP (ihp i w) fun j t w' e => (ihf t j w').le (hd _ _ (sh hp _ _ _ _ _ e))
  | andThen hp hq ihp ihq =>
    exact fun i w => adds_bindP (f := fun _ => _) (ihp i w) fun j t w' e =>
      (ihq j w').le (grows hq _ _ (sh hp _ _ _ _ _ e))
  | bindAfter hc hd _ _ ihp ihf =>
    exact fun i w => adds_bindP (ihp i w) fun j t w' e => (ihf t j w').le (le_after hd (hc _ _ _ _ _ e))
  | thenAfter hc _ hq ihp ihq =>
    exact fun i w => adds_bindP (f := fun _ => _) (ihp i w) fun j t w' e =>
      (ihq j w').le (le_after (grows hq) (hc _ _ _ _ _ e))
  | map f _ ih => exact fun i => addsM_post (ih i) fun a => by cases a <;> exact addsM_pure _ _
  | mapErr f _ ih => exact fun i => addsM_post (ih i) fun a => by cases a <;> exact addsM_pure _ _
  | inspect f hf _ ih =>
    refine fun i => addsM_bind (ih i) fun a => ?_
    cases a with
    | data j t => exact addsM_post (hf t) fun _ => addsM_pure _ _
    | _ => exact addsM_pure _ _
  | effect _ hg _ ih =>
    exact fun i w => (addsM_bind hg (fun a => ih a i) w).le (Nat.le_of_eq (Nat.add_comm _ _))
  | mapM f hf _ ih =>
    refine fun i => addsM_bind (ih i) fun a => ?_
    cases a with
    | data j t => exact addsM_post (hf t) fun _ => addsM_pure _ _
    | _ => exact addsM_pure _ _
  | mapErrM f hf _ ih =>
    refine fun i => addsM_bind (ih i) fun a => ?_
    cases a with
    | error j t => exact addsM_post (hf t) fun _ => addsM_pure _ _
    | _ => exact addsM_pure _ _
  | satisfyM v f hf => exact fun i => adds_head hf i _
  | satisfyWithM v f p hf hp =>
    intro i
    unfold Closures.satisfyWith
    match i.buf with
    | [] => exact addsM_pure _ _
    | c :: r =>
      refine addsM_bind (B := 1) (B' := 1) (hf c) fun t => addsM_post (hp t) fun a => ?_
      cases a with
      | true => exact addsM_post (addsM_sliceFrom _ _) fun _ => addsM_pure _ _
      | false => exact addsM_pure _ _
  | tokenM eq v t hf => exact fun i => adds_head hf i _
  | notTokenM ne v t hf => exact fun i => adds_head hf i _
  | takeWhileM f hf =>
    refine fun i => addsM_post (adds_position (fun c => addsM_post (B := 1) (hf c) fun a => addsM_pure _ _) _) fun a => ?_
    cases a with
    | some n => exact addsM_slices _ _ _
    | none => exact addsM_last _ _ _ _
  | takeWhile1M v f hf =>
    refine fun i => addsM_post (adds_position (fun c => addsM_post (B := 1) (hf c) fun a => addsM_pure _ _) _) fun a => ?_
    match a with
    | some 0 => exact addsM_pure _ _
    | some (n + 1) => exact addsM_slices _ _ _
    | none => exact addsM_last _ _ _ _
  | takeTillM f hf =>
    refine fun i => addsM_post (adds_position hf _) fun a => ?_
    cases a with
    | some n => exact addsM_slices _ _ _
    | none => exact addsM_pure _ _
  | scanM s f hf =>
    refine fun i => addsM_post (adds_scanPosition hf _ _) fun a => ?_
    cases a with
    | some n => exact addsM_slices _ _ _
    | none => exact addsM_pure _ _
  | runScannerM s f hf =>
    refine fun i => addsM_post (adds_runScannerPosition hf _ _) fun a => ?_
    match a with
    | (some n, s) => exact addsM_slices _ _ _
    | (none, s) => exact addsM_pure _ _
  | stringM ne v s hf =>
    intro i
    unfold Closures.string
    dsimp only
    split
    · exact fun w => Adds.le (addsM_post (addsM_lift _) (fun _ => addsM_pure _ _) w) (Nat.zero_le _)
    · refine fun w => Adds.le (addsM_bind (addsM_sliceTo _ _) (fun d => addsM_post (adds_mismatch hf s d) fun a => ?_) w)
        (Nat.le_of_eq (Nat.zero_add _))
      cases a with
      | some j =>
        show AddsM m 0 (Err.string v i j s)
        unfold Err.string
        split
        · exact addsM_pure _ _
        · exact addsM_post (addsM_sliceFrom _ _) fun _ => addsM_pure _ _
      | none => exact addsM_post (addsM_sliceFrom _ _) fun _ => addsM_pure _ _
  | count k c hp ih => exact fun i w => adds_many_limit (r := .exactly k) (up hp ih _) (sh hp) rfl c (Nat.le_refl _)
  | option t _ ih =>
    refine fun i => addsM_post (ih i) fun a => ?_
    cases a with
    | incomplete n => dsimp only; split <;> exact addsM_pure _ _
    | _ => exact addsM_pure _ _
  | or _ _ ihp ihq =>
    intro i
    refine addsM_bind (ihp i) fun a => ?_
    cases a with
    | data j t => exact addsM_pure _ _
    | error b e => exact ihq i
    | incomplete n =>
      dsimp only
      split
      · exact ihq i
      · exact addsM_pure _ _
  | many c hc hp ih => exact fun i w => adds_many (up hp ih _) hc .full c (Nat.le_refl _)
  | many1 c hc hp ih => exact fun i w => adds_many (up hp ih _) hc (.from_ 1) c (Nat.le_refl _)
  | sepBy conv c hc hp hq ihp ihq =>
    exact fun i w => adds_sep conv (up hp ihp _) (up hq ihq _) (sh hp) (sh hq) hc .full c (Nat.le_refl _)
  | sepBy1 conv c hc hp hq ihp ihq =>
    exact fun i w => adds_sep conv (up hp ihp _) (up hq ihq _) (sh hp) (sh hq) hc (.from_ 1) c (Nat.le_refl _)
  | manyTill c hc hp he ihp ihe =>
    intro i w
    refine (adds_till (up hp ihp _) (up he ihe _) hc .full c (Nat.le_refl _)).le ?_
    simp only [Till.last, Nat.succ_mul]
    omega
  | skipMany hc hp ih => exact fun i w => adds_skipMany (up hp ih _) hc .full (Nat.le_refl _)
  | skipMany1 hc hp ih => exact fun i w => adds_skipMany (up hp ih _) hc (.from_ 1) (Nat.le_refl _)
  | matchedBy _ ih =>
    intro i
    refine addsM_post (ih i) fun a => ?_
    cases a with
    | data j t =>
      exact addsM_post (addsM_lift _) fun _ => addsM_post (addsM_sliceTo _ _) fun _ => addsM_pure _ _
    | _ => exact addsM_pure _ _
  | lookAhead _ ih => exact fun i => addsM_post (ih i) fun a => by cases a <;> exact addsM_pure _ _
  | boundedMany r c hc hp ih => exact fun i w => adds_many (up hp ih _) hc r c (Nat.le_refl _)
  | limitedMany r c hr hp ih => exact fun i w => adds_many_limit (up hp ih _) (sh hp) hr c (Nat.le_refl _)
  | boundedSkipMany r hc hp ih => exact fun i w => adds_skipMany (up hp ih _) hc r (Nat.le_refl _)
  | limitedSkipMany r hr hp ih => exact fun i w => adds_skipMany_limit (up hp ih _) (sh hp) hr (Nat.le_refl _)
  | boundedManyTill r c hc hp he ihp ihe =>
    intro i w
    refine (adds_till (up hp ihp _) (up he ihe _) hc r c (Nat.le_refl _)).le ?_
    have : Till.last r ≤ 2 := by cases r <;> simp [Till.last]
    rename_i d _ _
    have := Nat.mul_le_mul_right (d i.buf.length) this
    simp only [Nat.succ_mul]
    omega
  | limitedManyTill r c hr hp he ihp ihe =>
    intro i w
    refine (adds_till_limit (up hp ihp _) (up he ihe _) (sh hp) hr c (Nat.le_refl _)).le ?_
    have : Till.last r ≤ 2 := by cases r <;> simp [Till.last]
    rename_i d _ _
    have := Nat.mul_le_mul_right (d i.buf.length) this
    simp only [Nat.succ_mul]
    omega
  | signed v N hp ih =>
    rename_i p
    intro i w
    refine Adds.le (adds_bindP (B := 0) (conv := id) (f := fun sign i => do
      let q ← p i
      q.map (fun num => M.lift (N.mul sign num))) (adds_sign v _ _ _ i w) fun j t w' e => ?_)
      (Nat.le_of_eq (Nat.zero_add _))
    refine addsM_post (fun w => (ih j w).le (grows hp _ _ ?_)) (fun a => ?_) w'
    · exact shrinks (.option _ (.map _ (.satisfy _ _))) e
    · cases a with
      | data j t => exact addsM_post (addsM_lift _) fun _ => addsM_pure _ _
      | _ => exact addsM_pure _ _

/-! ### What every run of the parser keeps, a retry loop keeps -/

/-- `P` is kept. -/
def Keep (P : σ → Prop) (g : M σ A) : Prop := ∀ w x w', P w → g w = .ok (x, w') → P w'

theorem keep_pure {P : σ → Prop} (x : A) : Keep P (pure x : M σ A) := by
  intro w y w' h e; cases e; exact h

theorem keep_lift {P : σ → Prop} (g : Res A) : Keep P (M.lift g : M σ A) := by
  intro w y w' h e
  cases g with
  | ok a => cases e; exact h
  | _ => cases e

theorem keep_bind {P : σ → Prop} {g : M σ A} {k : A → M σ B} (hg : Keep P g) (hk : ∀ a, Keep P (k a)) :
    Keep P (g >>= k) := by
  intro w y w' h e
  rw [M.bind_apply] at e
  match hm : g w, e with
  | .ok (a, w1), e => exact hk a w1 y w' (hg w a w1 h hm) e

section
variable {S B : Type} [DataSource S I] [Buffer B I]

theorem keep_parse {P : σ → Prop} {f : Parser σ I T E} (hf : ∀ i, Keep P (f i)) (chk : Bool) (s : Source S B) :
    Keep P (s.parse chk f) := by
  unfold Source.parse
  have rest : ∀ x : Except IoError Nat × Source S B, Keep P (match x with
      | (r, s) => match r with
        | .error e => pure (.error (.ioError e), s)
        | .ok _ => do
          if ← M.lift (s.isEmpty chk) then
            pure (.error .endOfInput, s)
          else
            let mode := if s.state.endOfInput then Mode.endOfInput else Mode.default
            let b ← M.lift (Buffer.deref s.buffer)
            match ← f ⟨mode, b⟩ with
            | .data remainder data =>
              let l ← M.lift (Buffer.len chk s.buffer)
              let d ← M.lift (usubB chk l remainder.buf.length)
              let b ← M.lift (Buffer.consume chk d s.buffer)
              pure (.ok data, { s with buffer := b })
            | .error remainder err =>
              let l ← M.lift (Buffer.len chk s.buffer)
              let d ← M.lift (usubB chk l remainder.length)
              let b ← M.lift (Buffer.consume chk d s.buffer)
              pure (.error (.parseError remainder err), { s with buffer := b })
            | .incomplete n =>
              let l ← M.lift (Buffer.len chk s.buffer)
              let request ← M.lift (uaddB chk l n)
              let s := { s with request := request }
              if s.state.endOfInput then
                pure (.error (.incomplete request), s)
              else
                pure (.error .retry, { s with state := { s.state with incomplete := true } }) :
      M σ (Except (StreamError I E) T × Source S B)) := by
    rintro ⟨r, s1⟩
    dsimp only
    cases r with
    | error e => exact keep_pure _
    | ok n =>
      refine keep_bind (keep_lift _) fun b => ?_
      split
      · exact keep_pure _
      · refine keep_bind (keep_lift _) fun b => keep_bind (hf _) fun r => ?_
        cases r with
        | data j t =>
          exact keep_bind (keep_lift _) fun _ => keep_bind (keep_lift _) fun _ =>
            keep_bind (keep_lift _) fun _ => keep_pure _
        | error x e =>
          exact keep_bind (keep_lift _) fun _ => keep_bind (keep_lift _) fun _ =>
            keep_bind (keep_lift _) fun _ => keep_pure _
        | incomplete n =>
          refine keep_bind (keep_lift _) fun _ => keep_bind (keep_lift _) fun _ => ?_
          split <;> exact keep_pure _
  split
  · exact keep_bind (keep_lift _) rest
  · exact keep_bind (keep_pure _) rest

theorem keep_retry {P : σ → Prop} {f : Parser σ I T E} (hf : ∀ i, Keep P (f i)) (chk : Bool) (s : Source S B) :
    Keep P (retry chk f s) := by
  intro w x w' h hr
  unfold retry at hr
  have hrun := loop_eq_ok.mp hr
  clear hr
  generalize ho : Res.ok (x, w') = o at hrun
  induction hrun with
  | brk h1 =>
    cases ho
    rw [M.map_apply] at h1
    match hp : Source.parse chk f _ _, h1 with
    | .ok (y, w1), h1 =>
      have e2 := (Prod.mk.inj (Res.ok.inj h1)).2
      subst e2
      exact keep_parse hf chk _ _ _ _ h hp
  | panic => cases ho
  | ub => cases ho
  | cont h1 _ ih =>
    rw [M.map_apply] at h1
    match hp : Source.parse chk f _ _, h1 with
    | .ok (y, w1), h1 =>
      have e2 := (Prod.mk.inj (Res.ok.inj h1)).2
      subst e2
      exact ih (keep_parse hf chk _ _ _ _ h hp) ho

/-- Together the runs in the record have added at most what is allowed for each of them. -/
theorem retry_sum {b : Nat → Nat} {p : Parser σ I T E} (hp : ∀ i, AddsM m (b i.buf.length) (p i)) (chk : Bool)
    (s s' : Source S B) (w w' : σ) (r : Except (StreamError I E) T) (log : List (Run I))
    (hr : retry chk (recorded p) s (w, []) = .ok ((r, s'), (w', log))) :
    m w' ≤ m w + (log.map fun a => b a.size).sum := by
  have := keep_retry (P := fun x : σ × List (Run I) => m x.1 ≤ m w + (x.2.map fun a => b a.size).sum)
    (f := recorded p) (fun i x r x' hx e => ?_) chk s (w, []) _ _ (Nat.le_add_right _ _) hr
  · exact this
  · obtain ⟨h1, h2⟩ := Runs.recorded_ok (w := x.1) (l := x.2) e
    have h3 : m x'.1 ≤ m x.1 + b i.buf.length := by
      have := hp i x.1
      exact this _ _ h1
    rw [h2, List.map_append, List.sum_append]
    simp only [List.map_cons, List.map_nil, List.sum_cons, List.sum_nil]
    show m x'.1 ≤ m w + (_ + (b i.buf.length + 0))
    omega

end

theorem sum_le {l : List A} {f : A → Nat} {k : Nat} (h : ∀ a ∈ l, f a ≤ k) : (l.map f).sum ≤ l.length * k := by
  induction l with
  | nil => simp
  | cons a l ih =>
    have h1 := h a (by simp)
    have h2 := ih fun x hx => h x (by simp [hx])
    rw [List.map_cons, List.sum_cons, List.length_cons, Nat.succ_mul]
    omega

/-! ### Runs on all there is -/

theorem then_data {p : Parser σ I T E} {i j : Input I} {w w' : σ} {t : T} (h : p i w = .ok (.data j t, w'))
    (conv : E → V) (q : Parser σ I U V) : Parser.andThen conv p q i w = q j w' := by
  unfold Parser.andThen
  rw [M.bind_apply, h, Res.bind_ok]
  show (q j >>= fun r => r.mapErr fun e => pure e) w' = _
  rw [M.bind_apply]
  cases hq : q j w' with
  | ok x => obtain ⟨r, w1⟩ := x; cases r <;> rfl
  | _ => rfl

theorem then_fails {p : Parser σ I T E} {i : Input I} {w w' : σ} {r : ParseResult I T E}
    (h : p i w = .ok (r, w')) (hr : ∀ j t, r ≠ .data j t) (conv : E → V) (q : Parser σ I U V) :
    ∃ r', Parser.andThen conv p q i w = .ok (r', w') ∧ ∀ j u, r' ≠ .data j u := by
  unfold Parser.andThen
  rw [M.bind_apply, h, Res.bind_ok]
  cases r with
  | data j t => exact absurd rfl (hr j t)
  | error b e => exact ⟨_, rfl, nofun⟩
  | incomplete n => exact ⟨_, rfl, nofun⟩

theorem or_data {p : Parser σ I T E} {i j : Input I} {w w' : σ} {t : T} (h : p i w = .ok (.data j t, w'))
    (q : Parser σ I T E) : Comb.or p q i w = .ok (.data j t, w') := by
  unfold Comb.or
  rw [M.bind_apply, h, Res.bind_ok]
  rfl

theorem or_fails {p : Parser σ I T E} {x : List I} {w w' : σ} {r : ParseResult I T E}
    (h : p ⟨.endOfInput, x⟩ w = .ok (r, w')) (hr : ∀ j t, r ≠ .data j t) (q : Parser σ I T E) :
    Comb.or p q ⟨.endOfInput, x⟩ w = q ⟨.endOfInput, x⟩ w' := by
  unfold Comb.or
  rw [M.bind_apply, h, Res.bind_ok]
  cases r with
  | data j t => exact absurd rfl (hr j t)
  | error _ _ => rfl
  | incomplete _ => rfl

theorem map_data {p : Parser σ I T E} {i j : Input I} {w w' : σ} {t : T} (h : p i w = .ok (.data j t, w'))
    (f : T → U) : Parser.map p f i w = .ok (.data j (f t), w') := by
  unfold Parser.map
  rw [M.bind_apply, h, Res.bind_ok]
  rfl

theorem map_fails {p : Parser σ I T E} {i : Input I} {w w' : σ} {r : ParseResult I T E}
    (h : p i w = .ok (r, w')) (hr : ∀ j t, r ≠ .data j t) (f : T → U) :
    ∃ r', Parser.map p f i w = .ok (r', w') ∧ ∀ j u, r' ≠ .data j u := by
  unfold Parser.map
  rw [M.bind_apply, h, Res.bind_ok]
  cases r with
  | data j t => exact absurd rfl (hr j t)
  | error b e => exact ⟨_, rfl, nofun⟩
  | incomplete n => exact ⟨_, rfl, nofun⟩

theorem token_cases [DecidableEq I] (v : Bool) (t : I) (x : List I) :
    (∃ z, x = t :: z ∧ ∀ w : σ, Parsers.token v t ⟨.endOfInput, x⟩ w = .ok (.data ⟨.endOfInput, z⟩ t, w)) ∨
    ((∀ z, x ≠ t :: z) ∧ ∃ r, (∀ w : σ, Parsers.token v t ⟨.endOfInput, x⟩ w = .ok (r, w)) ∧ ∀ j u, r ≠ .data j u) := by
  cases x with
  | nil => exact .inr ⟨nofun, _, fun w => Parsers.token_eq v t _ w, nofun⟩
  | cons c z =>
    by_cases h : t = c
    · subst h
      exact .inl ⟨z, rfl, fun w => by rw [Parsers.token_eq]; simp⟩
    · refine .inr ⟨fun z' hz => h (by cases hz; rfl), .error (c :: z) (Err.expected v t), fun w => ?_, nofun⟩
      rw [Parsers.token_eq]
      simp [h]

end Work
end Chomp
