import Verif.Lemmas.Source
import Verif.Props.Buffer
import Verif.Spec.Safe

/-
For C80: what remains true of a buffer, and a source, which is not used as its documentation demands.
-/

set_option linter.unusedSectionVars false

namespace Chomp

/-- It panics, or returns something with the property. -/
def Tame (x : Res α) (P : α → Prop) : Prop := x = .panic ∨ ∃ a, x = .ok a ∧ P a

namespace Tame

theorem ok {P : α → Prop} {a : α} (h : P a) : Tame (.ok a) P := .inr ⟨a, rfl, h⟩

theorem panic {P : α → Prop} : Tame .panic P := .inl rfl

theorem bind {x : Res α} {P : α → Prop} {f : α → Res β} {Q : β → Prop} (h : Tame x P)
    (hf : ∀ a, x = .ok a → P a → Tame (f a) Q) : Tame (x >>= f) Q := by
  rcases h with rfl | ⟨a, rfl, ha⟩
  · exact .inl rfl
  · exact hf a rfl ha

theorem mono {x : Res α} {P Q : α → Prop} (h : Tame x P) (hq : ∀ a, P a → Q a) : Tame x Q := by
  rcases h with rfl | ⟨a, rfl, ha⟩
  · exact .inl rfl
  · exact .inr ⟨a, rfl, hq a ha⟩

theorem uadd (chk : Bool) (a b : Nat) : Tame (uaddB chk a b) (· ≤ usizeMax) := by
  unfold uaddB
  split
  · exact ok ‹_›
  · split
    · exact panic
    · have e : usizeMax + 1 = 2 ^ 64 := by decide
      refine ok ?_
      have := Nat.mod_lt (a + b) (show 0 < 2 ^ 64 by decide)
      omega

theorem usub (chk : Bool) (a b : Nat) : Tame (usubB chk a b) (fun _ => True) := by
  unfold usubB
  split
  · exact ok trivial
  · split
    · exact panic
    · exact ok trivial

theorem debug (chk c : Bool) : Tame (debugAssert chk c) (fun _ => True) := by
  unfold debugAssert
  split
  · exact panic
  · exact ok trivial

theorem assert (c : Bool) : Tame (Chomp.assert c) (fun _ => c = true) := by
  unfold Chomp.assert
  split
  · exact ok ‹_›
  · exact panic

end Tame

/-- The property of what is returned; when it may be undefined behaviour, or not return. -/
def Tamed (U D : Prop) (x : Res α) (P : α → Prop) : Prop :=
  match x with
  | .ok a => P a
  | .panic => True
  | .ub => U
  | .div => D

namespace Tamed

theorem of {U D : Prop} {x : Res α} {P : α → Prop} (h : Tame x P) : Tamed U D x P := by
  rcases h with rfl | ⟨a, rfl, ha⟩
  · trivial
  · exact ha

theorem bind {U D : Prop} {x : Res α} {P : α → Prop} {f : α → Res β} {Q : β → Prop}
    (h : Tamed U D x P) (hf : ∀ a, x = .ok a → P a → Tamed U D (f a) Q) : Tamed U D (x >>= f) Q := by
  cases x with
  | ok a => exact hf a rfl h
  | panic => exact h
  | ub => exact h
  | div => exact h

theorem weaken {U D U' D' : Prop} {x : Res α} {P : α → Prop} (h : Tamed U D x P) (hu : U → U')
    (hd : D → D') : Tamed U' D' x P := by
  cases x with
  | ok a => exact h
  | panic => trivial
  | ub => exact hu h
  | div => exact hd h

end Tamed

/-- A buffer which is memory safe however it is used by a `Source`. -/
class SafeBuffer (B : Type) (I : outParam Type) [Buffer B I] where
  Safe : B → Prop
  room : B → Nat
  deref : ∀ {b}, Safe b → Tame (Buffer.deref b) (fun _ => True)
  len : ∀ {b} chk, Safe b → Tame (Buffer.len chk b) (fun _ => True)
  capacity : ∀ {b}, Safe b → Buffer.capacity b ≤ usizeMax
  consume : ∀ {b} chk n, Safe b → Tame (Buffer.consume chk n b) Safe
  /-- `request_space` is called with what is missing only -/
  request : ∀ {b l r} chk, Safe b → Buffer.len chk b = .ok l → l < r → r ≤ usizeMax →
    Tame (Buffer.requestSpace chk (r - l) b) Safe
  fill : ∀ {S b} [DataSource S I] [HonestSource S I] chk (s : S), Safe b →
    ∃ r s' b', Buffer.fill chk s b = .ok (r, s', b') ∧ Safe b' ∧ ∀ n, r = .ok n → room b' + n ≤ room b

/-! ### The two buffers -/

open Props in
instance : SafeBuffer (FixedSizeBuffer I) I where
  Safe := FixedSafe
  room b := b.buffer.length - b.populated
  deref {b} h := by
    show Tame (subslice b.buffer b.used b.populated) _
    by_cases hu : b.used ≤ b.populated
    · rw [MemInv.deref (h.memUsed hu)]
      exact .ok trivial
    · unfold subslice
      rw [if_neg (by omega)]
      exact .panic
  len {b} chk h := .usub ..
  capacity {b} h := by
    obtain ⟨data, h1, h2, h3⟩ := h
    exact Nat.le_trans h3 (Nat.le_of_lt isize_lt)
  consume {b} chk n h := by
    show Tame (FixedSizeBuffer.consume chk n b) _
    unfold FixedSizeBuffer.consume
    exact .bind (.debug ..) fun _ _ _ => .bind (.uadd ..) fun u _ _ => .ok h
  request {b l r} chk h _ _ _ := by
    by_cases hu : b.used ≤ b.populated
    · obtain ⟨b', h1, h2, _⟩ := FixedSizeBuffer.requestSpace_inv (h.memUsed hu) chk (r - l)
      exact .inr ⟨b', h1, .of_inv h2⟩
    · refine .inl ?_
      show FixedSizeBuffer.requestSpace chk _ b = _
      simp [FixedSizeBuffer.requestSpace, Chomp.assert, hu]
  fill {S b} _ _ chk s h := by
    obtain ⟨data, hm⟩ := h.mem
    obtain ⟨hi, _⟩ := FixedSizeBuffer.inv_of (b := ⟨b.buffer, b.populated, 0⟩) hm
    obtain ⟨b', h1, h2, h3⟩ := FixedSizeBuffer.fill_inv hi chk s
    have : FixedSizeBuffer.fill chk s b =
        (FixedSizeBuffer.fill chk s ⟨b.buffer, b.populated, 0⟩ >>= fun x =>
          .ok (x.1, x.2.1, { x.2.2 with used := b.used })) := by
      simp only [FixedSizeBuffer.fill]
      split
      · split
        · rfl
        · simp only [bind_assoc, Res.bind_ok]
      · rfl
    refine ⟨(DataSource.read s (b.buffer.length - b.populated)).1.result,
      (DataSource.read s (b.buffer.length - b.populated)).2, { b' with used := b.used },
      this.trans (by rw [h1]; rfl), ?_, fun n hn => ?_⟩
    · obtain ⟨d, g1, g2, g3⟩ := FixedSafe.of_inv h2
      exact ⟨d, g1, g2, g3⟩
    · obtain ⟨g1, g2⟩ := HonestSource.honest s (b.buffer.length - b.populated) n hn
      obtain ⟨_, h4, h5⟩ := h3
      dsimp only at h4 h5 ⊢
      omega

/-- What remains of the invariant of a `GrowingBuffer`. -/
def GrowingSafe (b : GrowingBuffer I) : Prop :=
  (∃ data : List I, MemInv b.buffer b.populated 0 data) ∧ b.cap = b.buffer.length ∧ b.used ≤ usizeMax

namespace GrowingSafe

theorem inv {b : GrowingBuffer I} (h : GrowingSafe b) (hu : b.used ≤ b.populated) : b.Inv := by
  obtain ⟨⟨data, h1⟩, h2, _⟩ := h
  exact (GrowingBuffer.inv_of (data := data) ⟨hu, h1.init, h1.length, h1.size⟩ h2).1

theorem of_inv {b : GrowingBuffer I} (h : b.Inv) : GrowingSafe b := by
  have h1 := h.1.used_le
  have h2 := h.1.populated_le
  have h3 := h.1.size
  have h4 := isize_lt
  exact ⟨⟨b.data, Nat.zero_le _, h.1.init, h.1.length, h.1.size⟩, h.2, by omega⟩

theorem inv0 {b : GrowingBuffer I} (h : GrowingSafe b) : ({ b with used := 0 } : GrowingBuffer I).Inv := by
  obtain ⟨⟨data, h1⟩, h2, _⟩ := h
  exact (GrowingBuffer.inv_of (b := { b with used := 0 }) (data := data) h1 h2).1

end GrowingSafe

instance : SafeBuffer (GrowingBuffer I) I where
  Safe := GrowingSafe
  room b := b.buffer.length - b.populated
  deref {b} h := by
    show Tame (subslice b.buffer b.used b.populated) _
    by_cases hu : b.used ≤ b.populated
    · rw [MemInv.deref (h.inv hu).1]
      exact .ok trivial
    · unfold subslice
      rw [if_neg (by omega)]
      exact .panic
  len {b} chk h := .usub ..
  capacity {b} h := by
    obtain ⟨⟨data, h1⟩, _⟩ := h
    exact Nat.le_trans h1.size (Nat.le_of_lt isize_lt)
  consume {b} chk n h := by
    show Tame (GrowingBuffer.consume chk n b) _
    unfold GrowingBuffer.consume
    exact .bind (.debug ..) fun _ _ _ => .bind (.uadd ..) fun u _ hu => .ok ⟨h.1, h.2.1, hu⟩
  request {b l r} chk h hl hlr hr := by
    by_cases hu : b.used ≤ b.populated
    · rcases GrowingBuffer.requestSpace_inv (h.inv hu) chk (r - l) with e | ⟨b', h1, h2, _⟩
      · exact .inl e
      · exact .inr ⟨b', h1, .of_inv h2⟩
    · show Tame (GrowingBuffer.requestSpace chk (r - l) b) _
      have h0 := h.inv0
      have hpop : b.populated ≤ b.buffer.length := h0.1.populated_le
      have hcap : b.cap = b.buffer.length := h.2.1
      have hl' : GrowingBuffer.len chk b = .ok l := hl
      have hlen : b.populated < l := by
        have : usubB chk b.populated b.used = .ok l := hl
        cases chk with
        | true =>
          unfold usubB at this
          rw [if_neg hu, if_pos rfl] at this
          cases this
        | false =>
          obtain ⟨d, g1, g2⟩ := usubB_wrap (a := b.populated) (b := b.used) (by omega) h.2.2
          rw [this] at g1
          cases g1
          have e : usizeMax < 2 ^ 64 := by decide
          have := h.2.2
          omega
      have keep : ∀ c : GrowingBuffer I, GrowingSafe c → r - l ≤ c.buffer.length - c.populated →
          c.populated ≤ c.buffer.length → Tame (GrowingBuffer.shift chk (r - l) c) GrowingSafe := by
        intro c hc h1 h2
        unfold GrowingBuffer.shift
        rw [usubB_ok h2, Res.bind_ok, if_neg (by omega)]
        exact .ok hc
      unfold GrowingBuffer.requestSpace
      split
      · exact .ok h
      · rw [hl', Res.bind_ok, uaddB_ok (by omega), Res.bind_ok]
        split
        · show Tame (GrowingBuffer.reserve (r - l) b >>= fun b => GrowingBuffer.setLen b.cap b >>=
            GrowingBuffer.shift chk (r - l)) _
          have e := GrowingBuffer.reserve_eq h0 (n := r - l) (by omega)
          unfold GrowingBuffer.reserve
          rw [if_neg (by omega)]
          split
          · rename_i hs
            rw [Res.bind_ok]
            simp only [GrowingBuffer.setLen, Nat.le_refl, if_true]
            rw [Res.bind_ok]
            obtain ⟨g1, _, g3⟩ := GrowingBuffer.grow_inv h0 hs
            have hp : (b.grow (r - l)).populated = b.populated := rfl
            have g3' : b.buffer.length + (r - l) ≤ (b.grow (r - l)).buffer.length := g3
            refine keep (b.grow (r - l)) ⟨⟨_, g1.1⟩, g1.2, h.2.2⟩ ?_ ?_
            · omega
            · omega
          · exact .panic
        · exact keep b h (by omega) hpop
  fill {S b} _ _ chk s h := by
    obtain ⟨b', h1, h2, h3⟩ := GrowingBuffer.fill_inv h.inv0 chk s
    have : GrowingBuffer.fill chk s b =
        (GrowingBuffer.fill chk s { b with used := 0 } >>= fun x =>
          .ok (x.1, x.2.1, { x.2.2 with used := b.used })) := by
      simp only [GrowingBuffer.fill]
      split
      · split
        · rfl
        · simp only [bind_assoc, Res.bind_ok]
      · rfl
    refine ⟨(DataSource.read s (b.buffer.length - b.populated)).1.result,
      (DataSource.read s (b.buffer.length - b.populated)).2, { b' with used := b.used },
      this.trans (by rw [h1]; rfl), ?_, fun n hn => ?_⟩
    · obtain ⟨g1, g2, _⟩ := GrowingSafe.of_inv h2
      exact ⟨g1, g2, h.2.2⟩
    · obtain ⟨g1, g2⟩ := HonestSource.honest s (b.buffer.length - b.populated) n hn
      obtain ⟨_, h4, h5, _⟩ := h3
      dsimp only at h4 h5 ⊢
      omega

/-! ### Sources -/

section
variable {S B I : Type} [DataSource S I] [HonestSource S I] [Buffer B I] [SafeBuffer B I]

namespace Source

/-- What remains of the invariant of a `Source`. -/
def Safe (s : Source S B) : Prop := SafeBuffer.Safe s.buffer ∧ s.request ≤ usizeMax

theorem fillLoop_tame (chk : Bool) (req : Nat) : ∀ (n : Nat) (s : S) (b : B) (k : Nat),
    SafeBuffer.room b ≤ n → SafeBuffer.Safe b →
    Tame (loop (fillStep chk req) (s, b, k) ()) (fun x => SafeBuffer.Safe x.1.2.2) := by
  intro n
  induction n with
  | zero | succ n ih =>
    intro s b k hn h
    rw [loop_apply]
    refine .bind (P := fun x => match x.1 with
      | .inl y => SafeBuffer.room y.2.1 < SafeBuffer.room b ∧ SafeBuffer.Safe y.2.1
      | .inr y => SafeBuffer.Safe y.2.2) ?_ ?_
    · unfold fillStep
      dsimp only
      rcases SafeBuffer.len chk h with e | ⟨l, e, _⟩
      · rw [e]; exact .panic
      · rw [e]
        show Tame ((if l < req then _ else _ : M Unit _) ()) _
        split
        · obtain ⟨r, s', b', h1, h2, h3⟩ := SafeBuffer.fill chk s h
          rw [h1]
          match r, h3 with
          | .error e, _ => exact .ok h2
          | .ok 0, _ => exact .ok h2
          | .ok (m + 1), h3 =>
            have h4 := h3 _ rfl
            refine (?_ : Tame ((M.lift (.ok (Except.ok (m + 1), s', b')) >>= _ : M Unit _) ()) _)
            rw [M.lift_bind, Res.bind_ok]
            refine Eq.mpr (congrArg (Tame · _) (M.lift_bind (uaddB chk k (m + 1)) _ ())) ?_
            exact .bind (Tame.uadd chk k (m + 1)) fun a _ _ =>
              .ok ⟨by show SafeBuffer.room b' < _; omega, h2⟩
        · exact .ok h
    · rintro ⟨x, u⟩ _ hx
      match x, hx with
      | .inl (s', b', k'), hx =>
        first
        | exact ih s' b' k' (by have := hx.1; dsimp only at this; omega) hx.2
        | (have := hx.1; dsimp only at this; omega)
      | .inr y, hx => exact .ok hx

theorem fillRequested_tame (chk : Bool) (req : Nat) (hr : req ≤ usizeMax) (s : Source S B)
    (h : s.Safe) : Tame (s.fillRequested chk req) (fun x => x.2.Safe) := by
  unfold fillRequested
  refine .bind (SafeBuffer.len chk h.1) fun l hl _ => ?_
  split
  · rename_i hlt
    rw [usubB_ok (Nat.le_of_lt hlt), Res.bind_ok]
    exact .bind (SafeBuffer.request chk h.1 hl hlt hr) fun b _ hb =>
      .bind (fillLoop_tame chk req _ s.source b 0 (Nat.le_refl _) hb) fun x _ hx => .ok ⟨hx, h.2⟩
  · exact .ok h

theorem fill_tame (chk : Bool) (s : Source S B) (h : s.Safe) :
    Tame (s.fill chk) (fun x => x.2.Safe) := by
  unfold fill
  refine .bind (fillRequested_tame chk _ (Nat.max_le.mpr ⟨by decide, h.2⟩) s h) ?_
  rintro ⟨r, s'⟩ _ hs
  cases r with
  | error e => exact .ok hs
  | ok n => exact .bind (SafeBuffer.len chk hs.1) fun l _ _ => .ok hs

omit [DataSource S I] [HonestSource S I] in
theorem isEmpty_tame (chk : Bool) (s : Source S B) (h : s.Safe) :
    Tame (s.isEmpty chk) (fun _ => True) := by
  unfold isEmpty
  split
  · exact .bind (SafeBuffer.len chk h.1) fun l _ _ => .ok trivial
  · exact .ok trivial

theorem read_tame (chk : Bool) (k : Nat) (hk : k ≤ usizeMax) (s : Source S B) (h : s.Safe) :
    Tame (s.read chk k) (fun x => x.2.Safe) := by
  unfold read
  refine .bind (SafeBuffer.len chk h.1) fun l hl _ => ?_
  dsimp only
  split
  · refine .bind (fillRequested_tame chk k hk s h) ?_
    rintro ⟨r, s'⟩ _ hs
    cases r with
    | error e => exact .ok hs
    | ok n =>
      exact .bind (SafeBuffer.deref hs.1) fun d _ _ =>
        .bind (SafeBuffer.consume chk _ hs.1) fun b _ hb => .ok ⟨hb, hs.2⟩
  · rw [Res.bind_ok]
    exact .bind (SafeBuffer.deref h.1) fun d _ _ =>
      .bind (SafeBuffer.consume chk _ h.1) fun b _ hb => .ok ⟨hb, h.2⟩

theorem fillBuf_tame (chk : Bool) (s : Source S B) (h : s.Safe) :
    Tame (s.fillBuf chk) (fun x => x.2.Safe) := by
  unfold fillBuf
  refine .bind (fillRequested_tame chk _ (SafeBuffer.capacity h.1) s h) ?_
  rintro ⟨r, s'⟩ _ hs
  cases r with
  | error e => exact .ok hs
  | ok n => exact .bind (SafeBuffer.deref hs.1) fun d _ _ => .ok hs

/-- `parse` is as good as the parser. -/
theorem attempt_tamed (chk : Bool) (p : Parser σ I T E) (s : Source S B) (h : s.Safe) (w : σ) :
    Tamed (∃ i, p i w = .ub) (∃ i, p i w = .div) (s.attempt chk p w) (fun x => x.1.2.Safe) := by
  unfold attempt
  rw [M.lift_bind]
  refine .bind (.of (isEmpty_tame chk s h)) fun b _ _ => ?_
  cases b with
  | true => exact h
  | false =>
    rw [if_neg (by decide), M.lift_bind]
    refine .bind (.of (SafeBuffer.deref h.1)) fun d _ _ => ?_
    rw [M.bind_apply]
    refine .bind (P := fun _ => True) ?_ ?_
    · cases hp : p ⟨Spec.modeOf s, d⟩ w with
      | ok x => trivial
      | panic => trivial
      | ub => exact ⟨_, hp⟩
      | div => exact ⟨_, hp⟩
    · rintro ⟨r, w'⟩ _ _
      cases r with
      | data i t =>
        dsimp only
        rw [M.lift_bind]
        refine .bind (.of (SafeBuffer.len chk h.1)) fun l _ _ => ?_
        rw [M.lift_bind]
        refine .bind (.of (.usub ..)) fun d _ _ => ?_
        rw [M.lift_bind]
        exact .bind (.of (SafeBuffer.consume chk d h.1)) fun b _ hb => ⟨hb, h.2⟩
      | error b e =>
        dsimp only
        rw [M.lift_bind]
        refine .bind (.of (SafeBuffer.len chk h.1)) fun l _ _ => ?_
        rw [M.lift_bind]
        refine .bind (.of (.usub ..)) fun d _ _ => ?_
        rw [M.lift_bind]
        exact .bind (.of (SafeBuffer.consume chk d h.1)) fun b _ hb => ⟨hb, h.2⟩
      | incomplete n =>
        dsimp only
        rw [M.lift_bind]
        refine .bind (.of (SafeBuffer.len chk h.1)) fun l _ _ => ?_
        rw [M.lift_bind]
        refine .bind (.of (.uadd ..)) fun d _ hd => ?_
        split
        · exact ⟨h.1, hd⟩
        · exact ⟨h.1, hd⟩

theorem parse_tamed (chk : Bool) (p : Parser σ I T E) (s : Source S B) (h : s.Safe) (w : σ) :
    Tamed (∃ i, p i w = .ub) (∃ i, p i w = .div) (s.parse chk p w) (fun x => x.1.2.Safe) := by
  rw [parse_eq]
  refine .bind (P := fun (x : Except IoError Nat × Source S B) => x.2.Safe) ?_ ?_
  · split
    · exact .of (fill_tame chk s h)
    · exact h
  · rintro ⟨r, s'⟩ _ hs
    cases r with
    | error e => exact hs
    | ok n => exact attempt_tamed chk p s' hs w

end Source

open Spec

/-- One call. -/
theorem call_tamed (chk : Bool) (c : SourceCall σ I) (s : Source S B) (h : s.Safe)
    (hk : ∀ k, c = .read k → k ≤ isizeMax) (w : σ) :
    Tamed (¬ c.Sound) (¬ c.Returns) (c.run chk s w) (fun x => x.1.Safe) := by
  have lift : ∀ {α : Type} {x : Res α} {P : α → Prop} {f : α → Res (Source S B)}, Tame x P →
      (∀ a, P a → ∃ s', f a = .ok s' ∧ s'.Safe) →
      Tamed (¬ c.Sound) (¬ c.Returns) (M.lift (x >>= f) w) (fun x => x.1.Safe) := by
    intro α x P f h hf
    rcases h with rfl | ⟨a, rfl, ha⟩
    · trivial
    · obtain ⟨s', e, hs⟩ := hf a ha
      rw [Res.bind_ok, e]
      exact hs
  cases c with
  | parse p =>
    show Tamed _ _ ((s.parse chk p >>= fun x => pure x.2) w) _
    rw [M.bind_apply]
    refine .bind ((Source.parse_tamed chk p s h w).weaken ?_ ?_) ?_
    · rintro ⟨i, e⟩ hs
      exact hs i w e
    · rintro ⟨i, e⟩ hs
      exact hs i w e
    · rintro ⟨⟨r, s'⟩, w'⟩ _ hs
      exact hs
  | fill => exact lift (Source.fill_tame chk s h) fun a ha => ⟨_, rfl, ha⟩
  | len => exact lift (SafeBuffer.len chk h.1) fun a ha => ⟨_, rfl, h⟩
  | isEmpty => exact lift (Source.isEmpty_tame chk s h) fun a ha => ⟨_, rfl, h⟩
  | buffer => exact lift (SafeBuffer.deref h.1) fun a ha => ⟨_, rfl, h⟩
  | reset => exact h
  | setAutofill v => exact h
  | read k =>
    exact lift (Source.read_tame chk k (Nat.le_trans (hk k rfl) (Nat.le_of_lt isize_lt)) s h)
      fun a ha => ⟨_, rfl, ha⟩
  | fillBuf => exact lift (Source.fillBuf_tame chk s h) fun a ha => ⟨_, rfl, ha⟩
  | consume n => exact lift (SafeBuffer.consume chk n h.1) fun b hb => ⟨_, rfl, hb, h.2⟩

theorem calls_tamed (chk : Bool) : ∀ (cs : List (SourceCall σ I)) (s : Source S B) (w : σ), s.Safe →
    (∀ k, .read k ∈ cs → k ≤ isizeMax) →
    Tamed (¬ ∀ c ∈ cs, c.Sound) (¬ ∀ c ∈ cs, c.Returns) (runCalls chk cs s w) (fun x => x.1.Safe) := by
  intro cs
  induction cs with
  | nil => intro s w h _; exact h
  | cons c cs ih =>
    intro s w h hk
    show Tamed _ _ ((c.run chk s >>= runCalls chk cs) w) _
    rw [M.bind_apply]
    refine .bind ((call_tamed chk c s h (fun k e => hk k (by simp [e])) w).weaken ?_ ?_) ?_
    · exact fun hn ha => hn (ha c (by simp))
    · exact fun hn ha => hn (ha c (by simp))
    · rintro ⟨s', w'⟩ _ hs
      refine (ih s' w' hs (fun k hm => hk k (by simp [hm]))).weaken ?_ ?_
      · exact fun hn ha => hn fun d hd => ha d (by simp [hd])
      · exact fun hn ha => hn fun d hd => ha d (by simp [hd])

end

end Chomp
