import Verif.Lemmas.Look

/-
C120: what a data source finds in the slice it has to fill.
-/

namespace Chomp

open Chomp.Spec.Look

/-! ### Everything in the slice has been stored by the source itself -/

/-- What holds after any calls of `fill`, `request_space` and `consume`, whatever the source makes of what it sees. -/
private theorem look_after {S B I : Type} [LookingSource S I] [Buffer B I] [LawfulBuffer B I] [LookBuffer B I]
    [Look.Lawful B I] (hs : Honest S) (chk : Bool) {s : S} {b : B} (hi : LawfulBuffer.Inv b)
    (hv : LawfulBuffer.view b = []) (hn : ∀ i, some i ∉ LookBuffer.memory b) {w h c : List I} {s' : S} {b' : B}
    (ha : After chk (s, b) w h c (s', b')) :
    (∀ i, some i ∈ slice b' → i ∈ w) ∧
    (∃ v, Buffer.deref b' = .ok v ∧ c ++ v = h) ∧
    ∃ b1, LookBuffer.fill chk s' b' =
        .ok ((LookingSource.read s' (slice b')).1.result, (LookingSource.read s' (slice b')).2, b1) ∧
      (slice b1).length + (LookingSource.read s' (slice b')).1.items.length = (slice b').length := by
  obtain ⟨j, q, m⟩ := Look.after_spec hs ha hi hv hn
  obtain ⟨b1, e, _, _, hr, _⟩ := Look.fill_spec hs chk s' j
  exact ⟨fun i hi => m i (List.mem_of_mem_drop hi), ⟨_, LawfulBuffer.deref j, q⟩, b1, e, hr⟩

/-- A fixed size buffer. Its first slice has never been written. -/
theorem C120_fixed {S I : Type} [LookingSource S I] (hs : Honest S) (chk : Bool) {size : Nat} (h0 : 0 < size)
    (h1 : size ≤ isizeMax) (s : S) :
    ∃ b : FixedSizeBuffer I, FixedSizeBuffer.withSize size = .ok b ∧ slice b = List.replicate size none ∧
      ∀ w h c s' b', After chk (s, b) w h c (s', b') →
        (∀ i, some i ∈ slice b' → i ∈ w) ∧
        (∃ v, Buffer.deref b' = .ok v ∧ c ++ v = h) ∧
        ∃ b1, LookBuffer.fill chk s' b' =
            .ok ((LookingSource.read s' (slice b')).1.result, (LookingSource.read s' (slice b')).2, b1) ∧
          (slice b1).length + (LookingSource.read s' (slice b')).1.items.length = (slice b').length := by
  have e : FixedSizeBuffer.withSize size = .ok (⟨List.replicate size none, 0, 0⟩ : FixedSizeBuffer I) := by
    simp [FixedSizeBuffer.withSize, assert, h0, h1]
  obtain ⟨b, e', hi, hv, _⟩ := FixedSizeBuffer.withSize_inv (I := I) h0 h1
  rw [e] at e'
  cases e'
  exact ⟨_, e, rfl, fun w h c s' b' ha =>
    look_after hs chk hi hv (fun i hm => absurd (List.eq_of_mem_replicate hm) (by simp)) ha⟩

/-- A growing buffer, with or without a limit. -/
theorem C120_growing {S I : Type} [LookingSource S I] (hs : Honest S) (chk : Bool) (extra : Nat → Nat) (limit : Nat)
    (s : S) {w h c : List I} {s' : S} {b' : GrowingBuffer I}
    (ha : After chk (s, GrowingBuffer.withLimit extra limit) w h c (s', b')) :
    (∀ i, some i ∈ slice b' → i ∈ w) ∧
    (∃ v, Buffer.deref b' = .ok v ∧ c ++ v = h) ∧
    ∃ b1, LookBuffer.fill chk s' b' =
        .ok ((LookingSource.read s' (slice b')).1.result, (LookingSource.read s' (slice b')).2, b1) ∧
      (slice b1).length + (LookingSource.read s' (slice b')).1.items.length = (slice b').length :=
  look_after hs chk (GrowingBuffer.withLimit_inv extra limit) rfl (fun _ hm => by cases hm) ha

/-- The first space of a growing buffer has never been written, all of it. -/
theorem C120_growing_first (chk : Bool) (extra : Nat → Nat) (limit : Nat) {n : Nat} (h0 : 0 < n) (h1 : n ≤ isizeMax) :
    ∃ b : GrowingBuffer I, Buffer.requestSpace chk n (GrowingBuffer.withLimit extra limit) = .ok b ∧
      ∃ k, n ≤ k ∧ slice b = List.replicate k none := by
  have hi := isize_lt
  have e : Buffer.requestSpace chk n (GrowingBuffer.withLimit extra limit : GrowingBuffer I) =
      .ok ⟨List.replicate (min isizeMax (n + extra 0)) none, min isizeMax (n + extra 0), 0, limit, 0, extra, 1⟩ := by
    show GrowingBuffer.requestSpace chk n _ = _
    unfold GrowingBuffer.requestSpace GrowingBuffer.withLimit GrowingBuffer.len GrowingBuffer.reserve
      GrowingBuffer.setLen
    rw [if_neg (by simp), usubB_ok (Nat.le_refl 0)]
    simp only [Res.bind_ok, Nat.sub_self]
    rw [uaddB_ok (by omega)]
    simp only [Res.bind_ok, Nat.add_zero]
    rw [if_pos h0, if_neg (by simp; omega), if_pos (by simpa using h1)]
    simp only [Res.bind_ok, List.length_nil, Nat.zero_add, Nat.le_refl, if_true, List.take_nil, List.nil_append,
      Nat.sub_zero]
    rw [usubB_ok (Nat.zero_le _)]
    simp only [Res.bind_ok, List.length_replicate]
    rw [if_neg (by omega)]
  exact ⟨_, e, _, by omega, rfl⟩

/-! ### What is left there -/

/-- A fixed size buffer has been filled with `xs`, then `k` items are consumed and space is requested. The slice for
the next items shows the last `k` items of `xs`, of which the buffer still holds those that have not been consumed. -/
theorem C120_left_over {S I : Type} [LookingSource S I] (chk : Bool) (s : S) {xs : List I} (h0 : 0 < xs.length)
    (h1 : xs.length ≤ isizeMax) {k n : Nat} (hk : k ≤ xs.length) (hn : 0 < n)
    (hr : (LookingSource.read s (List.replicate xs.length none)).1 = ⟨xs.map some, .ok xs.length⟩) :
    ∃ b b1 b2 b3 : FixedSizeBuffer I, FixedSizeBuffer.withSize xs.length = .ok b ∧
      LookBuffer.fill chk s b = .ok (.ok xs.length, (LookingSource.read s (List.replicate xs.length none)).2, b1) ∧
      Buffer.consume chk k b1 = .ok b2 ∧ Buffer.requestSpace chk n b2 = .ok b3 ∧
      Buffer.deref b3 = .ok (xs.drop k) ∧ slice b3 = (xs.drop (xs.length - k)).map some := by
  have hi := isize_lt
  have e0 : FixedSizeBuffer.withSize xs.length =
      .ok (⟨List.replicate xs.length none, 0, 0⟩ : FixedSizeBuffer I) := by
    simp [FixedSizeBuffer.withSize, assert, h0, h1]
  have ho : ∀ ys : List I, overlay (List.replicate ys.length none) (ys.map some) = ys.map some := by
    intro ys
    induction ys with
    | nil => rfl
    | cons y ys ih => simp only [List.length_cons, List.replicate_succ, List.map_cons, overlay, ih]
  refine ⟨_, ⟨xs.map some, xs.length, 0⟩, ⟨xs.map some, xs.length, k⟩,
    ⟨(xs.drop k ++ xs.drop (xs.length - k)).map some, xs.length - k, 0⟩, e0, ?_, ?_, ?_, ?_, ?_⟩
  · show FixedSizeBuffer.fillLooking chk s _ = _
    unfold FixedSizeBuffer.fillLooking
    rw [if_pos (Nat.zero_le _)]
    simp only [List.drop_zero, List.take_zero, List.nil_append, hr, ho, List.length_map, Nat.zero_add]
    rw [uaddB_ok (by omega)]
    simp [debugAssert]
  · show FixedSizeBuffer.consume chk k _ = _
    unfold FixedSizeBuffer.consume
    rw [uaddB_ok (by dsimp only; omega)]
    simp [debugAssert, hk]
  · show FixedSizeBuffer.requestSpace chk n _ = _
    unfold FixedSizeBuffer.requestSpace
    simp only [List.length_map, assert, ge_iff_le, hk, decide_true, if_true, Res.bind_ok,
      usubB_ok (Nat.le_refl xs.length), usubB_ok hk, Nat.sub_self, if_pos hn]
    unfold ptrCopy
    rw [if_pos (by rw [List.length_map]; omega)]
    simp only [Res.bind_ok, List.map_append, List.map_drop]
    rw [List.take_of_length_le (by simp)]
  · show subslice _ _ _ = _
    unfold subslice
    rw [if_pos ⟨Nat.zero_le _, by simp⟩, List.map_append, List.drop_zero, Nat.sub_zero,
      List.take_left' (by simp), expose_some]
  · show List.drop (xs.length - k) (List.map some _) = _
    rw [List.map_append, List.drop_left' (by simp)]

/-! ### Sources which do not look -/

/-- To a source which keeps to the rule the slice makes no difference. -/
theorem C120_blind {S I : Type} [DataSource S I] (chk : Bool) (s : S) (b : FixedSizeBuffer I) (g : GrowingBuffer I) :
    LookBuffer.fill chk (⟨s⟩ : Blind S) b = (do
      let (r, s', b') ← Buffer.fill chk s b
      .ok (r, ⟨s'⟩, b')) ∧
    LookBuffer.fill chk (⟨s⟩ : Blind S) g = (do
      let (r, s', g') ← Buffer.fill chk s g
      .ok (r, ⟨s'⟩, g')) := by
  constructor
  · show FixedSizeBuffer.fillLooking chk _ b = (FixedSizeBuffer.fill chk s b >>= _)
    unfold FixedSizeBuffer.fillLooking FixedSizeBuffer.fill
    by_cases hp : b.populated ≤ b.buffer.length
    · rw [if_pos hp, if_pos hp, show LookingSource.read (⟨s⟩ : Blind S) (b.buffer.drop b.populated) =
        ((DataSource.read s (b.buffer.length - b.populated)).1,
          ⟨(DataSource.read s (b.buffer.length - b.populated)).2⟩) by rw [← List.length_drop]; rfl]
      dsimp only
      cases (DataSource.read s (b.buffer.length - b.populated)).1.result with
      | error e => rfl
      | ok n =>
        dsimp only
        generalize debugAssert _ _ = d
        cases d <;> try rfl
        rw [Res.bind_ok, Res.bind_ok]
        generalize uaddB _ _ _ = p
        cases p <;> rfl
    · rw [if_neg hp, if_neg hp]
      rfl
  · show GrowingBuffer.fillLooking chk _ g = (GrowingBuffer.fill chk s g >>= _)
    unfold GrowingBuffer.fillLooking GrowingBuffer.fill
    by_cases hp : g.populated ≤ g.buffer.length
    · rw [if_pos hp, if_pos hp, show LookingSource.read (⟨s⟩ : Blind S) (g.buffer.drop g.populated) =
        ((DataSource.read s (g.buffer.length - g.populated)).1,
          ⟨(DataSource.read s (g.buffer.length - g.populated)).2⟩) by rw [← List.length_drop]; rfl]
      dsimp only
      cases (DataSource.read s (g.buffer.length - g.populated)).1.result with
      | error e => rfl
      | ok n =>
        dsimp only
        generalize debugAssert _ _ = d
        cases d <;> try rfl
        rw [Res.bind_ok, Res.bind_ok]
        generalize uaddB _ _ _ = p
        cases p <;> rfl
    · rw [if_neg hp, if_neg hp]
      rfl

/-! ### `io::Read` -/

/-- An `io::Read` in a `ReadDataSource` is given the same slice, and keeps to the contract if it did before. -/
theorem C120_io_read {R : Type} [LookingSource R UInt8] (r : R) (cells : List (Option UInt8)) :
    (LookingSource.read (⟨r⟩ : ReadDataSource R) cells).1 = (LookingSource.read r cells).1 ∧
    (LookingSource.read (⟨r⟩ : ReadDataSource R) cells).2.inner = (LookingSource.read r cells).2 ∧
    (Honest R → Honest (ReadDataSource R)) :=
  ⟨rfl, rfl, fun h s cells n e => h s.inner cells n e⟩

namespace LookExample

/-- A source which has something to hand over, and then hands over again what it finds in the first cell. -/
structure Echo where
  first : List UInt8

instance : LookingSource Echo UInt8 where
  read s cells :=
    if s.first ≠ [] ∧ s.first.length ≤ cells.length then (⟨s.first.map some, .ok s.first.length⟩, ⟨[]⟩)
    else match cells with
      | some x :: _ => (⟨[some x], .ok 1⟩, ⟨[]⟩)
      | _ => (⟨[], .ok 0⟩, ⟨[]⟩)

theorem echo_honest : Honest Echo := by
  intro s cells n e
  change (ite _ _ _ : ReadOut UInt8 × Echo).1.result = _ at e
  show _ ∧ (ite _ _ _ : ReadOut UInt8 × Echo).1.items.length = n
  by_cases h : s.first ≠ [] ∧ s.first.length ≤ cells.length
  · rw [if_pos h] at e ⊢
    cases e
    refine ⟨h.2, ?_⟩
    show (List.filterMap id (List.take s.first.length (List.map some s.first))).length = _
    rw [List.take_of_length_le (by simp), filterMap_id_some]
  · rw [if_neg h] at e ⊢
    rcases cells with _ | ⟨_ | x, cells⟩
    · cases e; exact ⟨Nat.le_refl _, rfl⟩
    · cases e; exact ⟨Nat.zero_le _, rfl⟩
    · cases e; exact ⟨by simp, rfl⟩

/-- three bytes are delivered and two consumed; the source finds the second and the third in the slice -/
example : ∃ b b1 b2 b3 : FixedSizeBuffer UInt8, FixedSizeBuffer.withSize 3 = .ok b ∧
    LookBuffer.fill true (⟨[1, 2, 3]⟩ : Echo) b = .ok (.ok 3, ⟨[]⟩, b1) ∧
    Buffer.consume true 2 b1 = .ok b2 ∧ Buffer.requestSpace true 1 b2 = .ok b3 ∧
    Buffer.deref b3 = .ok [3] ∧ slice b3 = [some 2, some 3] :=
  C120_left_over true (⟨[1, 2, 3]⟩ : Echo) (xs := [1, 2, 3]) (by decide) (by decide) (by decide) (by decide) rfl

/-- a buffer with this memory -/
def buf (m : List (Option UInt8)) (populated used : Nat) : FixedSizeBuffer UInt8 := ⟨m, populated, used⟩

/-- and hands over the second again, which is what the buffer holds then -/
example : ∃ (s : Echo) (b : FixedSizeBuffer UInt8),
    After true ((⟨[1, 2, 3]⟩ : Echo), (⟨[none, none, none], 0, 0⟩ : FixedSizeBuffer UInt8)) [1, 2, 3, 2] [1, 2, 3, 2]
      [1, 2] (s, b) ∧ Buffer.deref b = .ok [3, 2] :=
  ⟨⟨[]⟩, ⟨[some 3, some 2, some 3], 2, 0⟩,
    .fill (w := [1, 2, 3]) (h := [1, 2, 3]) (s := (⟨[]⟩ : Echo)) (b := buf [some 3, some 2, some 3] 1 0) (r := .ok 1)
      (.requestSpace 1 (b := buf [some 1, some 2, some 3] 3 2)
        (.consume (c := []) (b := buf [some 1, some 2, some 3] 3 0) (xs := [1, 2, 3]) 2
          (.fill (w := []) (h := []) (s := (⟨[1, 2, 3]⟩ : Echo)) (b := buf [none, none, none] 0 0) (r := .ok 3) .new rfl)
          rfl (by decide) rfl) rfl) rfl, rfl⟩

end LookExample

end Chomp
