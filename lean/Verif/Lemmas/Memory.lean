import Verif.Spec.Memory
import Verif.Lemmas.Retry
import Verif.Lemmas.Derived

/-
The size of a `GrowingBuffer`.
-/

namespace Chomp

open Spec

variable {S I T E : Type} [DataSource S I]

namespace GrowingBuffer

/-- What becomes of a buffer if at most `R` items in total are asked for. -/
structure Grown (R : Nat) (b b' : GrowingBuffer I) : Prop where
  extra : b'.extra = b.extra
  limit : b'.limit = b.limit
  size : b'.buffer.length = b.buffer.length ∨
    (b.buffer.length < R ∧ (b.limit = 0 ∨ b.buffer.length ≤ b.limit) ∧ b.buffer.length ≤ b'.buffer.length ∧
      ∃ k, b'.buffer.length ≤ b.buffer.length + R + b.extra k)
  allocs : b'.allocs + min R b.buffer.length ≤ b.allocs + min R b'.buffer.length

theorem Grown.same {R : Nat} {b b' : GrowingBuffer I} (h1 : b'.extra = b.extra) (h2 : b'.limit = b.limit)
    (h3 : b'.buffer.length = b.buffer.length) (h4 : b'.allocs = b.allocs) : Grown R b b' :=
  ⟨h1, h2, .inl h3, by rw [h3, h4]; exact Nat.le_refl _⟩

theorem requestSpace_grown {R : Nat} {b b' : GrowingBuffer I} (h : b.Inv) (chk : Bool) (n : Nat)
    (hn : (b.data.drop b.used).length + n ≤ R) (hr : requestSpace chk n b = .ok b') : Grown R b b' := by
  rw [requestSpace_eq h] at hr
  have key : ∀ c c' : GrowingBuffer I, c.Inv → shift chk n c = .ok c' →
      c'.extra = c.extra ∧ c'.limit = c.limit ∧ c'.buffer.length = c.buffer.length ∧ c'.allocs = c.allocs := by
    intro c c' hc hs
    rw [shift_eq hc] at hs
    cases hs
    split
    · exact ⟨rfl, rfl, (compact_inv hc).2.2, rfl⟩
    · exact ⟨rfl, rfl, rfl, rfl⟩
  split at hr
  · cases hr; exact .same rfl rfl rfl rfl
  · rename_i hlim
    rw [Res.bind_eq_ok] at hr
    obtain ⟨need, h1, hr⟩ := hr
    have hneed : need ≤ n + (b.data.drop b.used).length := by
      unfold uaddB at h1
      split at h1
      · cases h1; exact Nat.le_refl _
      · split at h1
        · cases h1
        · cases h1; exact Nat.mod_le _ _
    have hc := h.2
    split at hr
    · split at hr
      · rename_i hg hs
        obtain ⟨g1, g2, g3⟩ := grow_inv h hs
        obtain ⟨k1, k2, k3, k4⟩ := key _ _ g1 hr
        have k4 : b'.allocs = b.allocs + 1 := k4
        have e : (b.grow n).buffer.length = min isizeMax (b.buffer.length + n + b.extra b.allocs) := by
          show (b.buffer.take _ ++ List.replicate _ none).length = _
          simp only [List.length_append, List.length_take, List.length_replicate]
          omega
        refine ⟨k1, k2, .inr ⟨by omega, ?_, by omega, b.allocs, by omega⟩, ?_⟩
        rotate_left
        · have hv : (b.data.drop b.used).length ≤ b.buffer.length := by
            have h1 := congrArg List.length h.1.init
            rw [List.length_take, List.length_map] at h1
            rw [List.length_drop]
            omega
          omega
        by_cases h0 : b.limit = 0
        · exact .inl h0
        · right
          rw [hc] at hlim
          have : ¬ b.limit < b.buffer.length := fun hlt => hlim ⟨h0, hlt⟩
          omega
      · cases hr
    · obtain ⟨k1, k2, k3, k4⟩ := key _ _ h hr
      exact .same k1 k2 k3 k4

theorem fill_fields {b b' : GrowingBuffer I} {chk : Bool} {s s' : S} {r : Except IoError Nat}
    (h : fill chk s b = .ok (r, s', b')) : b'.extra = b.extra ∧ b'.limit = b.limit ∧ b'.allocs = b.allocs := by
  unfold fill at h
  split at h
  · dsimp only at h
    split at h
    · cases h; exact ⟨rfl, rfl, rfl⟩
    · rw [Res.bind_eq_ok] at h
      obtain ⟨_, _, h⟩ := h
      rw [Res.bind_eq_ok] at h
      obtain ⟨_, _, h⟩ := h
      cases h; exact ⟨rfl, rfl, rfl⟩
  · cases h

theorem consume_fields {b b' : GrowingBuffer I} {chk : Bool} {n : Nat} (h : consume chk n b = .ok b') :
    b'.extra = b.extra ∧ b'.limit = b.limit ∧ b'.buffer.length = b.buffer.length ∧ b'.allocs = b.allocs := by
  unfold consume at h
  rw [Res.bind_eq_ok] at h
  obtain ⟨_, _, h⟩ := h
  rw [Res.bind_eq_ok] at h
  obtain ⟨_, _, h⟩ := h
  cases h; exact ⟨rfl, rfl, rfl, rfl⟩

end GrowingBuffer

open GrowingBuffer (Grown)

namespace Source

theorem fillLoop_fields {chk : Bool} {q : Nat} {x : S × GrowingBuffer I × Nat} {w w' : Unit}
    {y : Except IoError Nat × S × GrowingBuffer I}
    (h : loop (fillStep chk q) x w = .ok (y, w')) :
    y.2.2.extra = x.2.1.extra ∧ y.2.2.limit = x.2.1.limit ∧ y.2.2.allocs = x.2.1.allocs := by
  have hrun := loop_eq_ok.mp h
  clear h
  generalize ho : (Res.ok (y, w') : Res _) = o at hrun
  have step : ∀ (x : S × GrowingBuffer I × Nat) (w w1 : Unit) z, fillStep chk q x w = .ok (z, w1) →
      match z with
      | .inl z => z.2.1.extra = x.2.1.extra ∧ z.2.1.limit = x.2.1.limit ∧ z.2.1.allocs = x.2.1.allocs
      | .inr z => z.2.2.extra = x.2.1.extra ∧ z.2.2.limit = x.2.1.limit ∧ z.2.2.allocs = x.2.1.allocs := by
    intro x w w1 z hz
    obtain ⟨s, b, k⟩ := x
    unfold fillStep at hz
    dsimp only at hz
    rw [M.bind_eq_ok] at hz
    obtain ⟨l, w2, _, hz⟩ := hz
    split at hz
    · rw [M.bind_eq_ok] at hz
      obtain ⟨⟨r, s1, b1⟩, w3, hf, hz⟩ := hz
      have hf : GrowingBuffer.fill chk s b = .ok (r, s1, b1) := by
        change M.lift (GrowingBuffer.fill chk s b) w2 = _ at hf
        cases he : GrowingBuffer.fill chk s b <;> rw [he] at hf <;> cases hf
        rfl
      have := GrowingBuffer.fill_fields hf
      match r, hz with
      | .error e, hz => cases hz; exact this
      | .ok 0, hz => cases hz; exact this
      | .ok (n + 1), hz =>
        change ((do let read ← M.lift (uaddB chk k (n + 1)); pure (Sum.inl (s1, b1, read))) : M Unit _) w3 = _ at hz
        rw [M.bind_eq_ok] at hz
        obtain ⟨_, _, _, hz⟩ := hz
        cases hz; exact this
    · cases hz; exact ⟨rfl, rfl, rfl⟩
  induction hrun with
  | brk h => cases ho; exact step _ _ _ _ h
  | cont h _ ih =>
    have := step _ _ _ _ h
    have ih := ih ho
    exact ⟨ih.1.trans this.1, ih.2.1.trans this.2.1, ih.2.2.trans this.2.2⟩
  | panic => cases ho
  | ub => cases ho

variable [HonestSource S I]

theorem filled_grown {chk : Bool} {q R : Nat} {s s' : Source S (GrowingBuffer I)} (h : Usable s)
    {r : Except IoError Nat} (hq : q ≤ R) (hr : fillRequested chk q s = .ok (r, s')) :
    Grown R s.buffer s'.buffer ∧ s'.request = s.request ∧ Usable s' := by
  rcases fillRequested_spec chk q s h with ⟨h1, _⟩ | ⟨r1, s1, xs, h1, h2⟩
  · rw [h1] at hr; cases hr
  · have e : r1 = r ∧ s1 = s' := by rw [h1] at hr; cases hr; exact ⟨rfl, rfl⟩
    obtain ⟨rfl, rfl⟩ := e
    refine ⟨?_, h2.request_eq, h2.usable⟩
    by_cases hlt : (held s).length < q
    · obtain ⟨b1, k1, _, k3⟩ := h2.space hlt
      have hg : Grown R s.buffer b1 := GrowingBuffer.requestSpace_grown h chk _
        (show (held s).length + (q - (held s).length) ≤ R by omega) k1
      have hb : LawfulBuffer.Inv s.buffer := h
      unfold fillRequested at hr
      rw [LawfulBuffer.len chk hb, Res.bind_ok] at hr
      change (if (held s).length < q then _ else _) = _ at hr
      rw [if_pos hlt] at hr
      have hd : usubB chk q (LawfulBuffer.view s.buffer).length = .ok (q - (held s).length) :=
        usubB_ok (Nat.le_of_lt hlt)
      rw [hd, Res.bind_ok, k1, Res.bind_ok, Res.bind_eq_ok] at hr
      obtain ⟨⟨⟨r2, s2, b2⟩, w2⟩, h3, h4⟩ := hr
      cases h4
      obtain ⟨e1, e2, e3⟩ := fillLoop_fields h3
      have k3 : b2.buffer.length = b1.buffer.length := k3
      have g := hg.size
      have g' := hg.allocs
      rw [← k3] at g g'
      rw [← show b2.allocs = b1.allocs from e3] at g'
      exact ⟨e1.trans hg.extra, e2.trans hg.limit, g, g'⟩
    · obtain ⟨rfl, _⟩ := h2.none (by omega)
      exact .same rfl rfl rfl rfl

theorem fill_grown {chk : Bool} {R : Nat} {s s' : Source S (GrowingBuffer I)} (h : Usable s)
    {r : Except IoError Nat} (hq : max 1 s.request ≤ R) (hr : s.fill chk = .ok (r, s')) :
    Grown R s.buffer s'.buffer ∧ s'.request = s.request ∧ Usable s' := by
  unfold fill at hr
  dsimp only at hr
  rw [Res.bind_eq_ok] at hr
  obtain ⟨⟨r1, s1⟩, h1, hr⟩ := hr
  have g := filled_grown h hq h1
  cases r1 with
  | error e => cases hr; exact g
  | ok n =>
    dsimp only at hr
    rw [Res.bind_eq_ok] at hr
    obtain ⟨l, _, hr⟩ := hr
    cases hr
    exact g

/-- Where the parser is run, -/
theorem autofilled_grown {chk : Bool} {R : Nat} {s : Source S (GrowingBuffer I)} (h : Usable s)
    (hq : max 1 s.request ≤ R) :
    Grown R s.buffer (autofilled chk s).buffer ∧ (autofilled chk s).request = s.request ∧
      Usable (autofilled chk s) := by
  unfold autofilled
  split
  · split
    · rename_i hf
      exact fill_grown h hq hf
    · exact ⟨.same rfl rfl rfl rfl, rfl, h⟩
  · exact ⟨.same rfl rfl rfl rfl, rfl, h⟩

omit [HonestSource S I] in
/-- and what becomes of it then. -/
theorem parse_autofilled {B : Type} [Buffer B I] [LawfulBuffer B I] {chk : Bool} {p : Parser σ I T E}
    {s s' : Source S B} {w w' : σ} {r : Except (StreamError I E) T}
    (hr : s.parse chk p w = .ok ((r, s'), w')) :
    (∃ e, r = .error (.ioError e) ∧ s' = autofilled chk s) ∨
      (autofilled chk s).attempt chk p w = .ok ((r, s'), w') := by
  rw [parse_eq] at hr
  unfold autofilled
  split at hr
  · rename_i hi
    rw [if_pos hi]
    rw [Res.bind_eq_ok] at hr
    obtain ⟨⟨r1, s1⟩, h1, hr⟩ := hr
    rw [h1]
    cases r1 with
    | error e => cases hr; exact .inl ⟨e, rfl, rfl⟩
    | ok n => exact .inr hr
  · rename_i hi
    rw [if_neg hi]
    exact .inr hr

omit [HonestSource S I] in
theorem attempt_same {chk : Bool} {R : Nat} {p : Parser σ I T E} {s s' : Source S (GrowingBuffer I)}
    (h : Usable s) {w w' : σ} {r : Except (StreamError I E) T} (hq : s.request ≤ R)
    (hm : ∀ r w', p ⟨modeOf s, held s⟩ w = .ok (r, w') →
      match r with
      | .data i _ => i.buf.length ≤ (held s).length
      | .error b _ => b.length ≤ (held s).length
      | .incomplete n => (held s).length + n ≤ R)
    (hr : s.attempt chk p w = .ok ((r, s'), w')) :
    Grown R s.buffer s'.buffer ∧ s'.buffer.buffer.length = s.buffer.buffer.length ∧
      s'.buffer.allocs = s.buffer.allocs ∧ s'.request ≤ R ∧ Usable s' := by
  by_cases hn : s.state.endOfInput = true ∧ held s = []
  · rw [attempt_end chk p s w h hn.1 hn.2] at hr
    cases hr
    exact ⟨.same rfl rfl rfl rfl, rfl, rfl, hq, h⟩
  · rw [attempt_eq chk p s w h hn, Res.bind_eq_ok] at hr
    obtain ⟨⟨x, w1⟩, h1, hr⟩ := hr
    have hm := hm _ _ h1
    have eat : ∀ k b, k ≤ (held s).length → Buffer.consume chk k s.buffer = .ok b →
        Grown R s.buffer b ∧ b.buffer.length = s.buffer.buffer.length ∧ b.allocs = s.buffer.allocs ∧
          s.request ≤ R ∧ LawfulBuffer.Inv b := by
      intro k b hk hb
      have hf := GrowingBuffer.consume_fields hb
      obtain ⟨b', g1, g2, _⟩ := LawfulBuffer.consume (b := s.buffer) chk h hk
      rw [hb] at g1
      cases g1
      exact ⟨.same hf.1 hf.2.1 hf.2.2.1 hf.2.2.2, hf.2.2.1, hf.2.2.2, hq, g2⟩
    cases x with
    | data i t =>
      dsimp only at hm
      unfold finish at hr
      dsimp only at hr
      rw [usubB_ok hm, Res.bind_ok, Res.bind_eq_ok] at hr
      obtain ⟨b, h2, hr⟩ := hr
      cases hr
      exact eat _ b (by omega) h2
    | error y e =>
      dsimp only at hm
      unfold finish at hr
      dsimp only at hr
      rw [usubB_ok hm, Res.bind_ok, Res.bind_eq_ok] at hr
      obtain ⟨b, h2, hr⟩ := hr
      cases hr
      exact eat _ b (by omega) h2
    | incomplete n =>
      dsimp only at hm
      unfold finish at hr
      dsimp only at hr
      rw [Res.bind_eq_ok] at hr
      obtain ⟨q, h2, hr⟩ := hr
      have hq' : q ≤ R := by
        unfold uaddB at h2
        split at h2
        · cases h2; exact hm
        · split at h2
          · cases h2
          · cases h2; exact Nat.le_trans (Nat.mod_le _ _) hm
      split at hr <;> (cases hr; exact ⟨.same rfl rfl rfl rfl, rfl, rfl, hq', h⟩)

end Source

/-- One after the other, if the second does not grow. -/
theorem GrowingBuffer.Grown.then_same {R : Nat} {b b1 b2 : GrowingBuffer I} (h : Grown R b b1)
    (h1 : Grown R b1 b2) (h2 : b2.buffer.length = b1.buffer.length) (h3 : b2.allocs = b1.allocs) :
    Grown R b b2 :=
  ⟨h1.extra.trans h.extra, h1.limit.trans h.limit, by rw [h2]; exact h.size, by rw [h2, h3]; exact h.allocs⟩

end Chomp
