import Verif.Spec.Adapters
import Verif.Lemmas.Source
import Verif.Lemmas.Repeat

/-
Lemmas for C83.
-/

namespace Chomp

open Spec

theorem Outcomes.bind {P : A → A' → Prop} {Q : C → C' → Prop} {x : Res A} {x' : Res A'} {f : A → Res C}
    {f' : A' → Res C'} (h : Outcomes P x x') (hf : ∀ a a', P a a' → Outcomes Q (f a) (f' a')) :
    Outcomes Q (x >>= f) (x' >>= f') := by
  match x, x', h with
  | .ok a, .ok a', h => exact hf a a' h
  | .panic, .panic, _ => exact True.intro
  | .ub, .ub, _ => exact True.intro
  | .div, .div, _ => exact True.intro

theorem Outcomes.same (x : Res A) : Outcomes Eq x x := by cases x <;> first | rfl | exact True.intro

theorem Outcomes.mono {P Q : A → A' → Prop} {x : Res A} {x' : Res A'} (h : Outcomes P x x')
    (hm : ∀ a a', P a a' → Q a a') : Outcomes Q x x' := by
  match x, x', h with
  | .ok a, .ok a', h => exact hm a a' h
  | .panic, .panic, _ => exact True.intro
  | .ub, .ub, _ => exact True.intro
  | .div, .div, _ => exact True.intro

/-- The same program run with different data. -/
theorem Outcomes.same_bind {Q : C → C' → Prop} (x : Res A) {f : A → Res C} {f' : A → Res C'}
    (hf : ∀ a, Outcomes Q (f a) (f' a)) : Outcomes Q (x >>= f) (x >>= f') :=
  Outcomes.bind (Outcomes.same x) fun a _ h => h ▸ hf a

theorem Outcomes.lift_bind {P : A → A' → Prop} {Q : C × σ → C' × σ → Prop} {x : Res A} {x' : Res A'}
    {f : A → M σ C} {f' : A' → M σ C'} {w : σ} (h : Outcomes P x x')
    (hf : ∀ a a', P a a' → Outcomes Q (f a w) (f' a' w)) :
    Outcomes Q ((M.lift x >>= f) w) ((M.lift x' >>= f') w) := by
  match x, x', h with
  | .ok a, .ok a', h => exact hf a a' h
  | .panic, .panic, _ => exact True.intro
  | .ub, .ub, _ => exact True.intro
  | .div, .div, _ => exact True.intro

theorem Outcomes.lift_same {Q : C × σ → C' × σ → Prop} (x : Res A) {f : A → M σ C} {f' : A → M σ C'} {w : σ}
    (hf : ∀ a, Outcomes Q (f a w) (f' a w)) : Outcomes Q ((M.lift x >>= f) w) ((M.lift x >>= f') w) :=
  Outcomes.lift_bind (Outcomes.same x) fun a _ h => h ▸ hf a

/-- Results and related sources. -/
def FillRel (R : S → S' → Prop) (x : Except IoError Nat × S × B) (y : Except IoError Nat × S' × B) :
    Prop := x.1 = y.1 ∧ R x.2.1 y.2.1 ∧ x.2.2 = y.2.2

/-- Buffers whose `fill` depends on the source by reading from it only. -/
class Uniform (B : Type) (I : outParam Type) [Buffer B I] : Prop where
  fill : ∀ {S S' : Type} [DataSource S I] [DataSource S' I] {R : S → S' → Prop}, ReadAlike R →
    ∀ (chk : Bool) {s s'} (b : B), R s s' → Outcomes (FillRel R) (Buffer.fill chk s b) (Buffer.fill chk s' b)

instance : Uniform (FixedSizeBuffer I) I where
  fill {S S' _ _ R} hR chk s s' b h := by
    show Outcomes (FillRel R) (FixedSizeBuffer.fill chk s b) (FixedSizeBuffer.fill chk s' b)
    unfold FixedSizeBuffer.fill
    obtain ⟨h1, h2⟩ := hR s s' h (b.buffer.length - b.populated)
    split
    · dsimp only
      rw [← h1]
      match (DataSource.read s (b.buffer.length - b.populated)).1.result with
      | .error e => exact ⟨rfl, h2, rfl⟩
      | .ok n =>
        dsimp only
        refine Outcomes.same_bind _ fun _ => Outcomes.same_bind _ fun p => ?_
        exact ⟨rfl, h2, rfl⟩
    · exact True.intro

instance : Uniform (GrowingBuffer I) I where
  fill {S S' _ _ R} hR chk s s' b h := by
    show Outcomes (FillRel R) (GrowingBuffer.fill chk s b) (GrowingBuffer.fill chk s' b)
    unfold GrowingBuffer.fill
    obtain ⟨h1, h2⟩ := hR s s' h (b.buffer.length - b.populated)
    split
    · dsimp only
      rw [← h1]
      match (DataSource.read s (b.buffer.length - b.populated)).1.result with
      | .error e => exact ⟨rfl, h2, rfl⟩
      | .ok n =>
        dsimp only
        refine Outcomes.same_bind _ fun _ => Outcomes.same_bind _ fun p => ?_
        exact ⟨rfl, h2, rfl⟩
    · exact True.intro

/-- Loops whose turns are related. -/
theorem loop_both {f : S1 → M σ (S1 ⊕ R1)} {g : S2 → M σ (S2 ⊕ R2)} (R : S1 → S2 → Prop)
    (Q : R1 → R2 → Prop)
    (hstep : ∀ s1 s2 w, R s1 s2 → Outcomes (fun x y => x.2 = y.2 ∧ match x.1, y.1 with
      | .inl a, .inl b => R a b
      | .inr a, .inr b => Q a b
      | _, _ => False) (f s1 w) (g s2 w))
    {s1 : S1} {s2 : S2} {w : σ} (h : R s1 s2) :
    Outcomes (fun x y => Q x.1 y.1 ∧ x.2 = y.2) (loop f s1 w) (loop g s2 w) := by
  refine loop_sim (fun a w1 b w2 => R a b ∧ w1 = w2) (Outcomes (fun x y => Q x.1 y.1 ∧ x.2 = y.2))
    True.intro (fun s1 w1 s2 w2 h => ?_) ⟨h, rfl⟩
  obtain ⟨h, rfl⟩ := h
  have hs := hstep s1 s2 w1 h
  rw [loop_apply, loop_apply]
  match hf : f s1 w1, hg : g s2 w1 with
  | .ok (.inl a, u), .ok (.inl b, u') =>
    rw [hf, hg] at hs
    exact .inl ⟨_, _, _, _, rfl, rfl, hs.2, hs.1⟩
  | .ok (.inr a, u), .ok (.inr b, u') =>
    rw [hf, hg] at hs
    exact .inr ⟨hs.2, hs.1⟩
  | .ok (.inl _, _), .ok (.inr _, _) => rw [hf, hg] at hs; exact hs.2.elim
  | .ok (.inr _, _), .ok (.inl _, _) => rw [hf, hg] at hs; exact hs.2.elim
  | .panic, .panic => exact .inr True.intro
  | .ub, .ub => exact .inr True.intro
  | .div, .div => exact .inr True.intro
  | .ok _, .panic => rw [hf, hg] at hs; exact hs.elim
  | .ok _, .ub => rw [hf, hg] at hs; exact hs.elim
  | .ok _, .div => rw [hf, hg] at hs; exact hs.elim
  | .panic, .ok _ => rw [hf, hg] at hs; exact hs.elim
  | .panic, .ub => rw [hf, hg] at hs; exact hs.elim
  | .panic, .div => rw [hf, hg] at hs; exact hs.elim
  | .ub, .ok _ => rw [hf, hg] at hs; exact hs.elim
  | .ub, .panic => rw [hf, hg] at hs; exact hs.elim
  | .ub, .div => rw [hf, hg] at hs; exact hs.elim
  | .div, .ok _ => rw [hf, hg] at hs; exact hs.elim
  | .div, .panic => rw [hf, hg] at hs; exact hs.elim
  | .div, .ub => rw [hf, hg] at hs; exact hs.elim

namespace Source

variable {S S' B I : Type} [DataSource S I] [DataSource S' I] [Buffer B I] [Uniform B I]
  {R : S → S' → Prop}

/-- A result and related sources. -/
def OutRel (R : S → S' → Prop) (x : A × Source S B) (y : A × Source S' B) : Prop :=
  x.1 = y.1 ∧ SameSource R x.2 y.2

theorem fillRequested_alike (hR : ReadAlike R) (chk : Bool) (n : Nat) {s : Source S B} {s' : Source S' B}
    (h : SameSource R s s') : Outcomes (OutRel R) (fillRequested chk n s) (fillRequested chk n s') := by
  obtain ⟨src, b, q, st⟩ := s
  obtain ⟨src', b', q', st'⟩ := s'
  obtain ⟨h1, h2, h3, h4⟩ := h
  dsimp only at h1 h2 h3 h4
  subst h2 h3 h4
  unfold fillRequested
  refine Outcomes.same_bind _ fun l => ?_
  split
  · refine Outcomes.same_bind _ fun d => Outcomes.same_bind _ fun b => ?_
    refine Outcomes.bind (loop_both (fun x y => R x.1 y.1 ∧ x.2 = y.2) (FillRel R) ?_ ⟨h1, rfl⟩) ?_
    · intro x y w hxy
      obtain ⟨a, b, r⟩ := x
      obtain ⟨a', b', r'⟩ := y
      obtain ⟨k1, k2⟩ := hxy
      cases k2
      unfold fillStep
      refine Outcomes.lift_same _ fun l => ?_
      by_cases hl : l < n
      · rw [if_pos hl, if_pos hl]
        refine Outcomes.lift_bind (Uniform.fill hR chk b k1) ?_
        rintro ⟨o, a, b⟩ ⟨o', a', b'⟩ ⟨g1, g2, g3⟩
        dsimp only at g1 g2 g3
        subst g1 g3
        match o with
        | .error e => exact ⟨rfl, rfl, g2, rfl⟩
        | .ok 0 => exact ⟨rfl, rfl, g2, rfl⟩
        | .ok (m + 1) => exact Outcomes.lift_same _ fun r => ⟨rfl, g2, rfl⟩
      · rw [if_neg hl, if_neg hl]
        exact ⟨rfl, rfl, k1, rfl⟩
    · rintro ⟨⟨r, a, b⟩, w⟩ ⟨⟨r', a', b'⟩, w'⟩ ⟨⟨k1, k2, k3⟩, k4⟩
      dsimp only at k1 k2 k3
      subst k1 k3
      exact ⟨rfl, k2, rfl, rfl, rfl⟩
  · exact ⟨rfl, h1, rfl, rfl, rfl⟩

theorem fill_alike (hR : ReadAlike R) (chk : Bool) {s : Source S B} {s' : Source S' B}
    (h : SameSource R s s') : Outcomes (OutRel R) (fill chk s) (fill chk s') := by
  unfold fill
  dsimp only
  rw [← h.request]
  refine Outcomes.bind (fillRequested_alike hR chk _ h) ?_
  rintro ⟨r, t⟩ ⟨r', t'⟩ ⟨g1, g2⟩
  dsimp only at g1 g2
  subst g1
  match r with
  | .error e => exact ⟨rfl, g2⟩
  | .ok n =>
    dsimp only
    rw [← g2.buffer, ← g2.state]
    exact Outcomes.same_bind _ fun l => ⟨rfl, g2.source, rfl, g2.request, rfl⟩

theorem read_alike (hR : ReadAlike R) (chk : Bool) (k : Nat) {s : Source S B} {s' : Source S' B}
    (h : SameSource R s s') : Outcomes (OutRel R) (read chk k s) (read chk k s') := by
  unfold read len
  rw [← h.buffer]
  refine Outcomes.same_bind _ fun l => ?_
  dsimp only
  split
  · refine Outcomes.bind (fillRequested_alike hR chk _ h) ?_
    rintro ⟨r, t⟩ ⟨r', t'⟩ ⟨g1, g2⟩
    dsimp only at g1 g2
    subst g1
    match r with
    | .error e => exact ⟨rfl, g2⟩
    | .ok n =>
      dsimp only
      rw [← g2.buffer]
      exact Outcomes.same_bind _ fun d => Outcomes.same_bind _ fun b =>
        ⟨rfl, g2.source, rfl, g2.request, g2.state⟩
  · simp only [Res.bind_ok]
    rw [← h.buffer]
    exact Outcomes.same_bind _ fun d => Outcomes.same_bind _ fun b => ⟨rfl, h.source, rfl, h.request, h.state⟩

theorem fillBuf_alike (hR : ReadAlike R) (chk : Bool) {s : Source S B} {s' : Source S' B}
    (h : SameSource R s s') : Outcomes (OutRel R) (fillBuf chk s) (fillBuf chk s') := by
  unfold fillBuf
  dsimp only
  rw [← h.buffer]
  refine Outcomes.bind (fillRequested_alike hR chk _ h) ?_
  rintro ⟨r, t⟩ ⟨r', t'⟩ ⟨g1, g2⟩
  dsimp only at g1 g2
  subst g1
  match r with
  | .error e => exact ⟨rfl, g2⟩
  | .ok n =>
    dsimp only
    rw [← g2.buffer]
    exact Outcomes.same_bind _ fun d => ⟨rfl, g2⟩

omit [DataSource S I] [DataSource S' I] [Uniform B I] in
theorem consume_alike (chk : Bool) (k : Nat) {s : Source S B} {s' : Source S' B}
    (h : SameSource R s s') : Outcomes (SameSource R) (consume chk k s) (consume chk k s') := by
  unfold consume
  rw [← h.buffer]
  exact Outcomes.same_bind _ fun b => ⟨h.source, rfl, h.request, h.state⟩

theorem parse_alike (hR : ReadAlike R) (chk : Bool) (p : Parser σ I T E) {s : Source S B} {s' : Source S' B}
    (h : SameSource R s s') (w : σ) :
    Outcomes (fun x y => OutRel R x.1 y.1 ∧ x.2 = y.2) (parse chk p s w) (parse chk p s' w) := by
  rw [parse_eq, parse_eq]
  have key : ∀ {t : Source S B} {t' : Source S' B}, SameSource R t t' →
      Outcomes (fun x y => OutRel R x.1 y.1 ∧ x.2 = y.2) (attempt chk p t w) (attempt chk p t' w) := by
    intro t t' g
    obtain ⟨src, b, q, st⟩ := t
    obtain ⟨src', b', q', st'⟩ := t'
    obtain ⟨h1, h2, h3, h4⟩ := g
    dsimp only at h1 h2 h3 h4
    subst h2 h3 h4
    unfold attempt
    refine Outcomes.lift_same (isEmpty chk ⟨src, b, q, st⟩) fun e => ?_
    cases e with
    | true => exact ⟨⟨rfl, h1, rfl, rfl, rfl⟩, rfl⟩
    | false =>
      refine Outcomes.lift_same _ fun c => ?_
      rw [M.bind_apply, M.bind_apply]
      refine Outcomes.same_bind (p ⟨modeOf ⟨src, b, q, st⟩, c⟩ w) fun x => ?_
      obtain ⟨r, w⟩ := x
      match r with
      | .data m x =>
        exact Outcomes.lift_same _ fun l => Outcomes.lift_same _ fun d => Outcomes.lift_same _ fun b =>
          ⟨⟨rfl, h1, rfl, rfl, rfl⟩, rfl⟩
      | .error m e =>
        exact Outcomes.lift_same _ fun l => Outcomes.lift_same _ fun d => Outcomes.lift_same _ fun b =>
          ⟨⟨rfl, h1, rfl, rfl, rfl⟩, rfl⟩
      | .incomplete n =>
        refine Outcomes.lift_same _ fun l => Outcomes.lift_same _ fun d => ?_
        dsimp only
        split <;> exact ⟨⟨rfl, h1, rfl, rfl, rfl⟩, rfl⟩
  refine Outcomes.bind (P := OutRel R) ?_ ?_
  · rw [← h.state]
    split
    · exact fill_alike hR chk h
    · exact ⟨rfl, h⟩
  · rintro ⟨r, t⟩ ⟨r', t'⟩ ⟨g1, g2⟩
    dsimp only at g1 g2
    subst g1
    match r with
    | .error e => exact ⟨⟨rfl, g2⟩, rfl⟩
    | .ok n => exact key g2

end Source

end Chomp
