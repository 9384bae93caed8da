import Verif.Lemmas.Derived
import Verif.Props.Buffer

/-
C74: comparing, printing and editing buffers (src/buffer/buffer.rs). `written`, `ExactSource` and `FilledUp`
are defined in Verif/Spec/Derived.lean.
-/

namespace Chomp.Props

open Spec

/-! ### `is_empty` and `deref_mut` -/

/-- `is_empty` tells whether there is nothing to be read. -/
theorem C74_is_empty [Buffer B I] [LawfulBuffer B I] (chk : Bool) (b : B) (h : LawfulBuffer.Inv b) :
    ∃ l, Buffer.deref b = .ok l ∧ Buffer.isEmpty chk b = .ok l.isEmpty := by
  refine ⟨_, LawfulBuffer.deref h, ?_⟩
  unfold Buffer.isEmpty
  rw [LawfulBuffer.len chk h]
  cases LawfulBuffer.view b <;> rfl

/-- Writing through `deref_mut` changes the contents and nothing else. -/
theorem C74_deref_mut_fixed (b : FixedSizeBuffer I) (h : LawfulBuffer.Inv b) (ws : List (Option I)) :
    ∃ l b', Buffer.deref b = .ok l ∧ b.derefMut ws = .ok b' ∧ LawfulBuffer.Inv b' ∧
      Buffer.deref b' = .ok (written l ws) ∧ LawfulBuffer.room b' = LawfulBuffer.room b ∧
      Buffer.capacity b' = Buffer.capacity b := by
  have h : b.Inv := h
  obtain ⟨mem', h1, h2, h3, _⟩ := Derived.writeSlice_inv h ws
  obtain ⟨h4, h5⟩ := FixedSizeBuffer.inv_of (b := { b with buffer := mem' }) h2
  refine ⟨b.data.drop b.used, { b with buffer := mem' }, h.deref,
    by unfold FixedSizeBuffer.derefMut; rw [h1]; rfl, h4, ?_, ?_, h3⟩
  · refine (LawfulBuffer.deref (B := FixedSizeBuffer I) h4).trans ?_
    show Res.ok (List.drop b.used (FixedSizeBuffer.data _)) = _
    rw [h5]
    have : (b.data.take b.used).length = b.used := by
      rw [List.length_take, h.length]; have := h.used_le; omega
    rw [List.drop_append, this, Nat.sub_self, List.drop_of_length_le (by omega)]
    rfl
  · show mem'.length - b.populated = b.buffer.length - b.populated
    rw [h3]

/-- Likewise for a `GrowingBuffer`. -/
theorem C74_deref_mut_growing (b : GrowingBuffer I) (h : LawfulBuffer.Inv b) (ws : List (Option I)) :
    ∃ l b', Buffer.deref b = .ok l ∧ b.derefMut ws = .ok b' ∧ LawfulBuffer.Inv b' ∧
      Buffer.deref b' = .ok (written l ws) ∧ LawfulBuffer.room b' = LawfulBuffer.room b ∧
      Buffer.capacity b' = Buffer.capacity b := by
  have h : b.Inv := h
  obtain ⟨mem', h1, h2, h3, _⟩ := Derived.writeSlice_inv h.1 ws
  obtain ⟨h4, h5⟩ := GrowingBuffer.inv_of (b := { b with buffer := mem' }) h2 (by rw [h3]; exact h.2)
  refine ⟨b.data.drop b.used, { b with buffer := mem' }, h.1.deref,
    by unfold GrowingBuffer.derefMut; rw [h1]; rfl, h4, ?_, ?_, h3⟩
  · refine (LawfulBuffer.deref (B := GrowingBuffer I) h4).trans ?_
    show Res.ok (List.drop b.used (GrowingBuffer.data _)) = _
    rw [h5]
    have : (b.data.take b.used).length = b.used := by
      rw [List.length_take, h.1.length]; have := h.1.used_le; omega
    rw [List.drop_append, this, Nat.sub_self, List.drop_of_length_le (by omega)]
    rfl
  · show mem'.length - b.populated = b.buffer.length - b.populated
    rw [h3]

/-! ### `==` -/

/-- If two buffers compare equal, they hold the same, and have the same capacity and room. -/
theorem C74_eq_true (eq : I → I → Bool) (heq : ∀ x y, eq x y = true → x = y) (a b : FixedSizeBuffer I)
    (h : a.eq eq b = .ok true) : a = b := by
  unfold FixedSizeBuffer.eq at h
  split at h
  · rename_i hl
    obtain ⟨c, h1, h2⟩ := Res.bind_eq_ok.mp h
    cases c with
    | false => cases h2
    | true =>
      have e := Derived.eqCells_true heq (by simpa using hl) h1
      simp only [if_true, Res.ok.injEq, Bool.and_eq_true, beq_iff_eq] at h2
      obtain ⟨m, p, u⟩ := a
      obtain ⟨m', p', u'⟩ := b
      simp only at e h2
      rw [e, h2.1, h2.2]
  · cases h

/-- The converse is false: these two have read "ab" and "bb" into a memory of two items, and consumed one
item; both are full and hold "b", but they compare unequal. -/
theorem C74_eq_spurious (chk : Bool) : ∃ (b b1 b2 : FixedSizeBuffer Char) (ops : List BufOp)
    (s1 s2 s1' s2' : Script Char), FixedSizeBuffer.withSize 2 = .ok b ∧
    Legal chk ops (s1, b) ∧ runOps chk ops (s1, b) = .ok (s1', b1) ∧
    Legal chk ops (s2, b) ∧ runOps chk ops (s2, b) = .ok (s2', b2) ∧
    Buffer.deref b1 = .ok ['b'] ∧ Buffer.deref b2 = .ok ['b'] ∧ Buffer.capacity b1 = Buffer.capacity b2 ∧
    LawfulBuffer.room b1 = LawfulBuffer.room b2 ∧ b1.eq (· == ·) b2 = .ok false := by
  refine ⟨⟨[none, none], 0, 0⟩, ⟨[some 'a', some 'b'], 2, 1⟩, ⟨[some 'b', some 'b'], 2, 1⟩,
    [.fill, .consume 1], ⟨[.data 'a' ['b']]⟩, ⟨[.data 'b' ['b']]⟩, ⟨[]⟩, ⟨[]⟩, rfl, ?_, ?_, ?_, ?_, rfl, rfl, rfl,
    rfl, rfl⟩ <;> cases chk
  all_goals first
    | rfl
    | exact legal_of_check rfl

/-- Comparing two new buffers of the same size is undefined behaviour. -/
theorem C74_eq_new (eq : I → I → Bool) (size : Nat) (a b : FixedSizeBuffer I)
    (ha : FixedSizeBuffer.withSize size = .ok a) (hb : FixedSizeBuffer.withSize size = .ok b) :
    a.eq eq b = .ub := by
  unfold FixedSizeBuffer.withSize at ha hb
  obtain ⟨_, h1, h2⟩ := Res.bind_eq_ok.mp ha
  obtain ⟨_, h3, h4⟩ := Res.bind_eq_ok.mp h2
  obtain ⟨_, _, h6⟩ := Res.bind_eq_ok.mp hb
  obtain ⟨_, _, h8⟩ := Res.bind_eq_ok.mp h6
  cases h4
  cases h8
  cases size with
  | zero => cases h1
  | succ n => simp [FixedSizeBuffer.eq, List.replicate_succ, eqCells]

/-- Sizes which differ are told apart without looking at the memory. -/
theorem C74_eq_sizes (eq : I → I → Bool) (a b : FixedSizeBuffer I)
    (h : Buffer.capacity a ≠ Buffer.capacity b) : a.eq eq b = .ok false := by
  have h : a.buffer.length ≠ b.buffer.length := h
  unfold FixedSizeBuffer.eq
  rw [if_neg (by simpa using h)]

/-! ### `Debug`, and comparing a buffer with itself -/

/-- With sources which write no more than what they hand over: printing a `FixedSizeBuffer`, or comparing it
to itself, is undefined behaviour until the memory has been filled up to its end for the first time, and is
fine from then on. -/
theorem C74_debug [DataSource S I] [HonestSource S I] [ExactSource S I] (chk : Bool) (eq : I → I → Bool)
    (heq : ∀ x, eq x x = true) (size : Nat) (b b' : FixedSizeBuffer I) (s s' : S) (ops : List BufOp)
    (hb : FixedSizeBuffer.withSize size = .ok b) (hl : Legal chk ops (s, b))
    (hr : runOps chk ops (s, b) = .ok (s', b')) :
    (FilledUp chk ops s b → (∃ x, b'.debug = .ok x) ∧ b'.eq eq b' = .ok true) ∧
    (¬ FilledUp chk ops s b → b'.debug = .ub ∧ b'.eq eq b' = .ub) := by
  obtain ⟨hi, _, hc⟩ := withSize_inv hb
  have hmem : b.buffer = List.replicate size none ∧ b.populated = 0 := by
    unfold FixedSizeBuffer.withSize at hb
    obtain ⟨_, h1, h2⟩ := Res.bind_eq_ok.mp hb
    obtain ⟨_, h3, h4⟩ := Res.bind_eq_ok.mp h2
    cases h4
    exact ⟨rfl, rfl⟩
  have hsize : 0 < size := by
    cases size with
    | zero => cases hb
    | succ => omega
  have hp0 : Derived.Prefix b.buffer 0 := ⟨[], rfl, by rw [hmem.1]; simp⟩
  have hlen : b.buffer.length = size := hc
  obtain ⟨e, H, h1, _, h3, h4⟩ := Derived.runOps_prefix chk ops s s' b b' 0 hp0 (by omega) hi hl hr
  have hH : H ≤ b'.buffer.length := by
    obtain ⟨xs, g1, g2⟩ := h1
    have := congrArg List.length g2
    simp at this
    omega
  have hself := Derived.eqCells_self heq b'.buffer
  have heq' : b'.eq eq b' = (eqCells eq b'.buffer b'.buffer).bind fun c => .ok c := by
    unfold FixedSizeBuffer.eq
    rw [if_pos (by simp)]
    cases eqCells eq b'.buffer b'.buffer with
    | ok c => cases c <;> simp <;> rfl
    | _ => rfl
  have hfill : FilledUp chk ops s b ↔ H = size := by
    constructor
    · rintro ⟨o1, o2, s1, b1, he, hr1, hpop⟩
      obtain ⟨g1, g2⟩ := h4 o1 o2 s1 b1 he hr1
      have hpop : b1.populated = b1.buffer.length := hpop
      omega
    · intro hHs
      rcases h3 with h3 | ⟨o1, o2, s1, b1, he, hr1, hpop⟩
      · omega
      · refine ⟨o1, o2, s1, b1, he, hr1, ?_⟩
        have := (h4 o1 o2 s1 b1 he hr1).2
        show b1.populated = b1.buffer.length
        omega
  rw [hfill]
  constructor
  · intro hHs
    have hn : none ∉ b'.buffer := by rw [h1.none_mem]; omega
    rcases Derived.expose_cases b'.buffer with ⟨_, xs, g2, _⟩ | ⟨g1, _⟩
    · exact ⟨⟨(xs, b'.populated, b'.used), by unfold FixedSizeBuffer.debug; rw [g2]; rfl⟩,
        by rw [heq', hself.2 hn]; rfl⟩
    · exact absurd g1 hn
  · intro hHs
    have hn : none ∈ b'.buffer := by rw [h1.none_mem]; omega
    rcases Derived.expose_cases b'.buffer with ⟨g1, _⟩ | ⟨_, g2⟩
    · exact absurd rfl (g1 _ hn)
    · exact ⟨by unfold FixedSizeBuffer.debug; rw [g2]; rfl, by rw [heq', hself.1 hn]; rfl⟩

/-- A new `GrowingBuffer` can be printed; after the first `request_space` it cannot. -/
theorem C74_debug_growing (chk : Bool) (extra : Nat → Nat) (limit n : Nat) (b : GrowingBuffer I) (h0 : 0 < n)
    (hn : n ≤ usizeMax)
    (h : Buffer.requestSpace chk n (GrowingBuffer.withLimit extra limit : GrowingBuffer I) = .ok b) :
    (GrowingBuffer.withLimit extra limit : GrowingBuffer I).debug = .ok ([], 0, limit, 0) ∧ b.debug = .ub := by
  refine ⟨rfl, ?_⟩
  have h : GrowingBuffer.requestSpace chk n (GrowingBuffer.withLimit extra limit : GrowingBuffer I) = .ok b := h
  have hi := GrowingBuffer.withLimit_inv (I := I) extra limit
  rw [GrowingBuffer.requestSpace_eq hi, if_neg (by simp [GrowingBuffer.withLimit]), uaddB_ok (by
    simpa [GrowingBuffer.withLimit, GrowingBuffer.data] using hn)] at h
  simp only [Res.bind_ok] at h
  rw [if_pos (by show 0 < _; omega)] at h
  split at h
  · rename_i hle
    rw [GrowingBuffer.shift_eq (GrowingBuffer.grow_inv hi hle).1] at h
    have hle : n ≤ isizeMax := by simpa [GrowingBuffer.withLimit] using hle
    cases h
    rw [if_neg (by simp [GrowingBuffer.withLimit, GrowingBuffer.grow]; omega)]
    have : ((GrowingBuffer.withLimit extra limit : GrowingBuffer I).grow n).buffer =
        List.replicate (min isizeMax (n + extra 0)) none := by
      simp [GrowingBuffer.withLimit, GrowingBuffer.grow]
    unfold GrowingBuffer.debug
    rw [this]
    cases hm : min isizeMax (n + extra 0) with
    | zero => omega
    | succ k => rfl
  · cases h

namespace DerivedExample

instance : ExactSource (Script I) I where
  ok := by
    intro s k n h
    obtain ⟨ev⟩ := s
    change (Script.read _ _).1.result = _ at h
    change (Script.read _ _).1.writes.length ≤ _
    cases ev with
    | nil => exact Nat.zero_le _
    | cons ev r =>
      cases k with
      | zero => simp [Script.read]
      | succ k =>
        cases ev with
        | err e => simp [Script.read] at h
        | data x xs =>
          simp only [Script.read, Except.ok.injEq] at h
          simp [Script.read]
          simp at h
          omega
  err := by
    intro s k e h
    obtain ⟨ev⟩ := s
    change (Script.read _ _).1.result = _ at h
    change (Script.read _ _).1.writes = _
    cases ev with
    | nil => rfl
    | cons ev r =>
      cases k with
      | zero => simp [Script.read]
      | succ k =>
        cases ev with
        | err e => rfl
        | data x xs => simp [Script.read] at h

/-- In the history of C44's example the memory of three items is filled up, by and by: afterwards the buffer
can be printed. -/
example : ∃ s' b', runOps true exampleOps (exampleScript, exampleFixed) = .ok (s', b') ∧
    (∃ x, b'.debug = .ok x) ∧ b'.eq (· == ·) b' = .ok true :=
  ⟨_, _, rfl, (C74_debug true (· == ·) (by simp) 3 exampleFixed _ exampleScript _ exampleOps rfl
    exampleOps_legal rfl).1 ⟨exampleOps.take 4, exampleOps.drop 4, _, _, rfl, rfl, rfl⟩⟩

/-- After the first two operations it cannot. -/
example : ∃ s' b', runOps true (exampleOps.take 2) (exampleScript, exampleFixed) = .ok (s', b') ∧
    b'.debug = .ub := ⟨_, _, rfl, rfl⟩

/-- The buffer holds 2, 3; the second of them is overwritten. -/
example : ∃ l b', Buffer.deref (⟨[some 1, some 2, some 3], 3, 1⟩ : FixedSizeBuffer Nat) = .ok l ∧
    FixedSizeBuffer.derefMut [none, some 7] ⟨[some 1, some 2, some 3], 3, 1⟩ = .ok b' ∧ l = [2, 3] ∧
    Buffer.deref b' = .ok [2, 7] := ⟨_, _, rfl, rfl, rfl, rfl⟩

end DerivedExample

end Chomp.Props
