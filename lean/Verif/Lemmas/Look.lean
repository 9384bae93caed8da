import Verif.Spec.Look
import Verif.Lemmas.Buffer

/-
Lemmas about data sources which look at the slice.
-/

namespace Chomp.Look

open Chomp.Spec.Look

/-! ### A source which has one answer -/

/-- The answer to a call with a slice of length `room`. -/
structure OneShot (I : Type) where
  room : Nat
  out : ReadOut I
  honest : ∀ n, out.result = .ok n → n ≤ room ∧ out.items.length = n

instance : DataSource (OneShot I) I where
  read s k := (if k = s.room then s.out else ⟨[], .ok 0⟩, s)

instance : HonestSource (OneShot I) I where
  honest s k n h := by
    change (if k = s.room then s.out else ⟨[], .ok 0⟩).result = _ at h
    show _ ∧ (if k = s.room then s.out else ⟨[], .ok 0⟩).items.length = n
    by_cases hk : k = s.room
    · rw [if_pos hk] at h ⊢
      rw [hk]
      exact s.honest n h
    · rw [if_neg hk] at h ⊢
      cases h
      exact ⟨Nat.zero_le _, rfl⟩

theorem oneShot_read (o : OneShot I) : DataSource.read o o.room = (o.out, o) := by
  show (if o.room = o.room then o.out else _, o) = _
  rw [if_pos rfl]

/-! ### Memory -/

theorem mem_overlay {x : I} (m ws : List (Option I)) (h : some x ∈ overlay m ws) : some x ∈ m ∨ some x ∈ ws := by
  induction m generalizing ws with
  | nil => cases ws <;> simp [overlay] at h
  | cons c m ih =>
    cases ws with
    | nil => exact .inl (by simpa [overlay] using h)
    | cons w ws =>
      cases w with
      | none =>
        simp only [overlay, List.mem_cons] at h ⊢
        rcases h with h | h
        · exact .inl (.inl h)
        · rcases ih ws h with h | h
          · exact .inl (.inr h)
          · exact .inr (.inr h)
      | some y =>
        simp only [overlay, List.mem_cons] at h ⊢
        rcases h with h | h
        · exact .inr (.inl h)
        · rcases ih ws h with h | h
          · exact .inl (.inr h)
          · exact .inr (.inr h)

theorem mem_filled {x : I} (m : List (Option I)) (p : Nat) (ws : List (Option I))
    (h : some x ∈ m.take p ++ overlay (m.drop p) ws) : some x ∈ m ∨ x ∈ ws.filterMap id := by
  rcases List.mem_append.mp h with h | h
  · exact .inl (List.mem_of_mem_take h)
  · rcases mem_overlay _ _ h with h | h
    · exact .inl (List.mem_of_mem_drop h)
    · exact .inr (List.mem_filterMap.mpr ⟨_, h, rfl⟩)

theorem mem_ptrCopy {c : Option I} {m m' : List (Option I)} {a n : Nat} (e : ptrCopy m a n = .ok m')
    (h : c ∈ m') : c ∈ m := by
  unfold ptrCopy at e
  split at e
  · cases e
    rcases List.mem_append.mp h with h | h
    · exact List.mem_of_mem_drop (List.mem_of_mem_take h)
    · exact List.mem_of_mem_drop h
  · cases e

theorem ok_of_bind {x : Res α} {f : α → Res β} {b : β} (h : (x >>= f) = .ok b) : ∃ a, x = .ok a ∧ f a = .ok b := by
  cases x with
  | ok a => exact ⟨a, rfl, h⟩
  | panic => cases h
  | ub => cases h
  | div => cases h

/-! ### Both buffers -/

class Lawful (B : Type) (I : outParam Type) [Buffer B I] [LawfulBuffer B I] [LookBuffer B I] : Prop where
  length : ∀ b : B, (slice b).length = LawfulBuffer.room b
  fill : ∀ {S : Type} [LookingSource S I] (chk : Bool) (s : S) (b : B) (o : OneShot I) r o' b',
    (LookingSource.read s (slice b)).1 = o.out → o.room = LawfulBuffer.room b →
    Buffer.fill chk o b = .ok (r, o', b') →
    LookBuffer.fill chk s b = .ok (r, (LookingSource.read s (slice b)).2, b') ∧
      ∀ x, some x ∈ LookBuffer.memory b' → some x ∈ LookBuffer.memory b ∨ x ∈ stored o.out
  request : ∀ {chk n} {b b' : B}, Buffer.requestSpace chk n b = .ok b' →
    ∀ x, some x ∈ LookBuffer.memory b' → some x ∈ LookBuffer.memory b
  consume : ∀ {chk n} {b b' : B}, Buffer.consume chk n b = .ok b' → LookBuffer.memory b' = LookBuffer.memory b

instance : Lawful (FixedSizeBuffer I) I where
  length b := List.length_drop
  fill {S} _ chk s b o r o' b' ho hr e := by
    change FixedSizeBuffer.fill chk o b = _ at e
    change FixedSizeBuffer.fillLooking chk s b = _ ∧ _
    unfold FixedSizeBuffer.fill at e
    unfold FixedSizeBuffer.fillLooking
    have hro : DataSource.read o (b.buffer.length - b.populated) = (o.out, o) := by
      rw [show b.buffer.length - b.populated = o.room from hr.symm]; exact oneShot_read o
    have hs : LookingSource.read s (b.buffer.drop b.populated) = (o.out, (LookingSource.read s (slice b)).2) := by
      rw [← ho]; rfl
    by_cases hp : b.populated ≤ b.buffer.length
    · rw [if_pos hp, hro] at e
      rw [if_pos hp, hs]
      dsimp only at e ⊢
      cases hres : o.out.result with
      | error er =>
        rw [hres] at e
        cases e
        exact ⟨rfl, fun x hx => mem_filled _ _ _ hx⟩
      | ok n =>
        rw [hres] at e
        dsimp only at e ⊢
        obtain ⟨u, e1, e⟩ := ok_of_bind e
        obtain ⟨p, e2, e⟩ := ok_of_bind e
        rw [e1, Res.bind_ok, e2, Res.bind_ok]
        cases e
        exact ⟨rfl, fun x hx => mem_filled _ _ _ hx⟩
    · rw [if_neg hp] at e
      cases e
  request {chk n b b'} e x hx := by
    change FixedSizeBuffer.requestSpace chk n b = _ at e
    unfold FixedSizeBuffer.requestSpace at e
    obtain ⟨_, _, e⟩ := ok_of_bind e
    obtain ⟨free, _, e⟩ := ok_of_bind e
    split at e
    · obtain ⟨_, _, e⟩ := ok_of_bind e
      obtain ⟨m, hm, e⟩ := ok_of_bind e
      obtain ⟨_, _, e⟩ := ok_of_bind e
      cases e
      exact mem_ptrCopy hm hx
    · cases e
      exact hx
  consume {chk n b b'} e := by
    change FixedSizeBuffer.consume chk n b = _ at e
    unfold FixedSizeBuffer.consume at e
    obtain ⟨_, _, e⟩ := ok_of_bind e
    obtain ⟨_, _, e⟩ := ok_of_bind e
    cases e
    rfl

theorem mem_setLen {x : I} {n : Nat} {b b' : GrowingBuffer I} (e : b.setLen n = .ok b') (h : some x ∈ b'.buffer) :
    some x ∈ b.buffer := by
  unfold GrowingBuffer.setLen at e
  split at e
  · cases e
    rcases List.mem_append.mp h with h | h
    · exact List.mem_of_mem_take h
    · exact absurd (List.eq_of_mem_replicate h) (by simp)
  · cases e

theorem reserve_buffer {n : Nat} {b b' : GrowingBuffer I} (e : b.reserve n = .ok b') : b'.buffer = b.buffer := by
  unfold GrowingBuffer.reserve at e
  split at e
  · cases e; rfl
  · split at e
    · cases e; rfl
    · cases e

theorem mem_shift {x : I} {chk : Bool} {n : Nat} {b b' : GrowingBuffer I} (e : b.shift chk n = .ok b')
    (hx : some x ∈ b'.buffer) : some x ∈ b.buffer := by
  unfold GrowingBuffer.shift at e
  obtain ⟨free, _, e⟩ := ok_of_bind e
  split at e
  · obtain ⟨_, _, e⟩ := ok_of_bind e
    obtain ⟨m, hm, e⟩ := ok_of_bind e
    obtain ⟨_, _, e⟩ := ok_of_bind e
    cases e
    exact mem_ptrCopy hm hx
  · cases e
    exact hx

instance : Lawful (GrowingBuffer I) I where
  length b := List.length_drop
  fill {S} _ chk s b o r o' b' ho hr e := by
    change GrowingBuffer.fill chk o b = _ at e
    change GrowingBuffer.fillLooking chk s b = _ ∧ _
    unfold GrowingBuffer.fill at e
    unfold GrowingBuffer.fillLooking
    have hro : DataSource.read o (b.buffer.length - b.populated) = (o.out, o) := by
      rw [show b.buffer.length - b.populated = o.room from hr.symm]; exact oneShot_read o
    have hs : LookingSource.read s (b.buffer.drop b.populated) = (o.out, (LookingSource.read s (slice b)).2) := by
      rw [← ho]; rfl
    by_cases hp : b.populated ≤ b.buffer.length
    · rw [if_pos hp, hro] at e
      rw [if_pos hp, hs]
      dsimp only at e ⊢
      cases hres : o.out.result with
      | error er =>
        rw [hres] at e
        cases e
        exact ⟨rfl, fun x hx => mem_filled _ _ _ hx⟩
      | ok n =>
        rw [hres] at e
        dsimp only at e ⊢
        obtain ⟨u, e1, e⟩ := ok_of_bind e
        obtain ⟨p, e2, e⟩ := ok_of_bind e
        rw [e1, Res.bind_ok, e2, Res.bind_ok]
        cases e
        exact ⟨rfl, fun x hx => mem_filled _ _ _ hx⟩
    · rw [if_neg hp] at e
      cases e
  request {chk n b b'} e x hx := by
    change GrowingBuffer.requestSpace chk n b = _ at e
    unfold GrowingBuffer.requestSpace at e
    by_cases hl : b.limit ≠ 0 ∧ b.cap > b.limit
    · rw [if_pos hl] at e
      cases e
      exact hx
    · rw [if_neg hl] at e
      obtain ⟨l, _, e⟩ := ok_of_bind e
      obtain ⟨need, _, e⟩ := ok_of_bind e
      by_cases hn : need > b.cap
      · rw [if_pos hn] at e
        obtain ⟨b2, h2, e⟩ := ok_of_bind e
        obtain ⟨b1, h3, e⟩ := ok_of_bind e
        have := mem_setLen h3 (mem_shift (chk := chk) (n := n) e hx)
        rwa [reserve_buffer h2] at this
      · rw [if_neg hn] at e
        exact mem_shift (chk := chk) (n := n) e hx
  consume {chk n b b'} e := by
    change GrowingBuffer.consume chk n b = _ at e
    unfold GrowingBuffer.consume at e
    obtain ⟨_, _, e⟩ := ok_of_bind e
    obtain ⟨_, _, e⟩ := ok_of_bind e
    cases e
    rfl

variable {S B I : Type} [LookingSource S I] [Buffer B I] [LawfulBuffer B I] [LookBuffer B I] [Lawful B I]

theorem fill_spec (hs : Honest S) (chk : Bool) (s : S) {b : B} (hb : LawfulBuffer.Inv b) :
    ∃ b', LookBuffer.fill chk s b =
        .ok ((LookingSource.read s (slice b)).1.result, (LookingSource.read s (slice b)).2, b') ∧
      LawfulBuffer.Inv b' ∧
      LawfulBuffer.view b' = LawfulBuffer.view b ++ (LookingSource.read s (slice b)).1.items ∧
      (slice b').length + (LookingSource.read s (slice b)).1.items.length = (slice b).length ∧
      ∀ x, some x ∈ LookBuffer.memory b' →
        some x ∈ LookBuffer.memory b ∨ x ∈ stored (LookingSource.read s (slice b)).1 := by
  let o : OneShot I := ⟨LawfulBuffer.room b, (LookingSource.read s (slice b)).1, fun n hn => by
    have := hs s (slice b) n hn
    rwa [Lawful.length] at this⟩
  obtain ⟨b', e, hi, hv, hr, _⟩ := LawfulBuffer.fill (S := OneShot I) chk o hb
  have ho : DataSource.read o (LawfulBuffer.room b) = (o.out, o) := oneShot_read o
  rw [ho] at e hv hr
  obtain ⟨e', hm⟩ := Lawful.fill chk s b o _ _ b' rfl rfl e
  exact ⟨b', e', hi, hv, by rw [Lawful.length, Lawful.length]; exact hr, hm⟩

theorem after_spec (hs : Honest S) {chk : Bool} {x y : S × B} {w h c : List I} (ha : After chk x w h c y)
    (hx : LawfulBuffer.Inv x.2) (hv : LawfulBuffer.view x.2 = []) (hn : ∀ i, some i ∉ LookBuffer.memory x.2) :
    LawfulBuffer.Inv y.2 ∧ c ++ LawfulBuffer.view y.2 = h ∧ ∀ i, some i ∈ LookBuffer.memory y.2 → i ∈ w := by
  induction ha with
  | new => exact ⟨hx, by rw [hv]; rfl, fun i hi => absurd hi (hn i)⟩
  | @fill w h c s b r s' b' _ e ih =>
    obtain ⟨i1, i2, i3⟩ := ih
    obtain ⟨b1, e1, j1, j2, _, j3⟩ := fill_spec hs chk s i1
    rw [e1] at e
    cases e
    refine ⟨j1, ?_, fun i hi => ?_⟩
    · show c ++ LawfulBuffer.view b' = _
      rw [j2, ← List.append_assoc, i2]
    · rcases j3 i hi with hi | hi
      · exact List.mem_append_left _ (i3 i hi)
      · exact List.mem_append_right _ hi
  | @requestSpace w h c s b b' n _ e ih =>
    obtain ⟨i1, i2, i3⟩ := ih
    rcases LawfulBuffer.request chk n i1 with e1 | ⟨b1, e1, j1, j2, _⟩
    · rw [e1] at e; cases e
    · have hm := Lawful.request e
      rw [e1] at e
      cases e
      exact ⟨j1, by show c ++ LawfulBuffer.view b' = _; rw [j2]; exact i2, fun i hi => i3 i (hm i hi)⟩
  | @consume w h c s b b' xs n _ hd hle e ih =>
    obtain ⟨i1, i2, i3⟩ := ih
    rw [LawfulBuffer.deref i1] at hd
    cases hd
    obtain ⟨b1, e1, j1, j2, _⟩ := LawfulBuffer.consume chk i1 hle
    have hm := Lawful.consume e
    rw [e1] at e
    cases e
    refine ⟨j1, ?_, fun i hi => i3 i (hm ▸ hi)⟩
    show (c ++ _) ++ LawfulBuffer.view b' = _
    rw [j2, List.append_assoc, List.take_append_drop]
    exact i2

end Chomp.Look
