import Verif.Model.ZeroSized
import Verif.Lemmas.Buffer
import Verif.Lemmas.Retry

/-
Lemmas about `GrowingBuffer` with items which have no size: it is a lawful buffer, without any room.
-/

namespace Chomp

open Spec

namespace ZeroBuffer

/-- The state which it is always in. -/
structure Inv (b : ZeroBuffer I) : Prop where
  buffer : b.inner.buffer = []
  cap : b.inner.cap = usizeMax
  populated : b.inner.populated = 0
  used : b.inner.used = 0

theorem withLimit_inv (limit : Nat) : (withLimit limit : ZeroBuffer I).Inv := ⟨rfl, rfl, rfl, rfl⟩

theorem requestSpace_eq {b : ZeroBuffer I} (h : b.Inv) (chk : Bool) (n : Nat) :
    Buffer.requestSpace chk n b = .panic ∧ usizeMax < n ∨ Buffer.requestSpace chk n b = .ok b := by
  obtain ⟨⟨buffer, cap, populated, limit, used, extra, allocs⟩⟩ := b
  obtain ⟨rfl, rfl, rfl, rfl⟩ := h
  show (GrowingBuffer.requestSpace chk n _ >>= _) = _ ∧ _ ∨ (GrowingBuffer.requestSpace chk n _ >>= _) = _
  unfold GrowingBuffer.requestSpace GrowingBuffer.len
  dsimp only
  split
  · exact .inr rfl
  · rw [usubB_ok (Nat.le_refl 0), Res.bind_ok]
    have hadd : uaddB chk n (0 - 0) = .panic ∧ usizeMax < n ∨ ∃ m, m ≤ usizeMax ∧ uaddB chk n (0 - 0) = .ok m := by
      unfold uaddB
      split
      · exact .inr ⟨_, by assumption, rfl⟩
      · split
        · exact .inl ⟨rfl, by omega⟩
        · have e : usizeMax + 1 = 2 ^ 64 := by decide
          refine .inr ⟨_, ?_, rfl⟩
          have := Nat.mod_lt (n + (0 - 0)) (y := 2 ^ 64) (by decide)
          omega
    rcases hadd with ⟨e, he⟩ | ⟨m, hm, e⟩
    · rw [e]; exact .inl ⟨rfl, he⟩
    · right
      rw [e, Res.bind_ok, if_neg (by omega), Res.bind_ok]
      dsimp only [List.length_nil]
      rw [usubB_ok (Nat.le_refl 0), Res.bind_ok]
      split
      · rw [Res.bind_ok]; rfl
      · rfl

theorem fill_eq [DataSource S I] [HonestSource S I] {b : ZeroBuffer I} (h : b.Inv) (chk : Bool) (s : S) :
    Buffer.fill chk s b = .ok ((DataSource.read s 0).1.result, (DataSource.read s 0).2, b) ∧
      (DataSource.read s 0).1.items = [] := by
  obtain ⟨⟨buffer, cap, populated, limit, used, extra, allocs⟩⟩ := b
  obtain ⟨rfl, rfl, rfl, rfl⟩ := h
  show (GrowingBuffer.fill chk s _ >>= _) = _ ∧ _
  unfold GrowingBuffer.fill
  dsimp only
  rw [if_pos (Nat.zero_le _)]
  match hr : DataSource.read s 0 with
  | (out, s') =>
    dsimp only [List.length_nil]
    have ho : ∀ ws : List (Option I), overlay ([] : List (Option I)) ws = [] := fun ws => by
      cases ws <;> rfl
    match hres : out.result with
    | .error e =>
      refine ⟨?_, by simp [ReadOut.items, hres]⟩
      simp [ho, Res.bind_ok]
    | .ok n =>
      have hon := HonestSource.honest s 0 n (by rw [hr]; exact hres)
      rw [hr] at hon
      dsimp only at hon
      obtain rfl : n = 0 := by omega
      refine ⟨?_, List.length_eq_zero_iff.mp hon.2⟩
      simp [ho, Res.bind_ok, debugAssert, uaddB]

instance lawful : LawfulBuffer (ZeroBuffer I) I where
  Inv := Inv
  view _ := []
  room _ := 0
  CanHold _ t := t = 0
  canHold_le h1 h2 := by omega
  size _ := Nat.zero_le _
  deref {b} h := by
    show subslice b.inner.buffer b.inner.used b.inner.populated = _
    rw [h.buffer, h.used, h.populated]
    rfl
  len {b} chk h := by
    show usubB chk b.inner.populated b.inner.used = _
    rw [h.used, h.populated]
    exact usubB_ok (Nat.le_refl 0)
  consume {b n} chk h hn := by
    obtain rfl : n = 0 := Nat.le_zero.mp hn
    refine ⟨b, ?_, h, rfl, rfl, rfl, fun _ h => h⟩
    show (GrowingBuffer.consume chk 0 b.inner >>= _) = _
    unfold GrowingBuffer.consume
    rw [debugAssert_ok (by simp [h.used, h.populated]), Res.bind_ok, uaddB_ok (by rw [h.used]; decide), Res.bind_ok,
      Res.bind_ok]
    rfl
  consume_over {b n} h hn := by
    have hn : 0 < n := hn
    show (GrowingBuffer.consume true n b.inner >>= _) = _
    unfold GrowingBuffer.consume
    rw [debugAssert_fail (by simp [h.used, h.populated]; omega)]
    rfl
  request {b} chk n h := by
    rcases requestSpace_eq h chk n with ⟨e, _⟩ | e
    · exact .inl e
    · exact .inr ⟨b, e, h, rfl, Nat.le_refl _, fun _ h => h⟩
  request_fits {b n} chk h hn := by
    obtain rfl : n = 0 := by simpa using hn
    rcases requestSpace_eq h chk 0 with ⟨_, e⟩ | e
    · exact absurd e (Nat.not_lt_zero _)
    · exact ⟨b, e, Nat.le_refl _⟩
  fill {S b} _ _ chk s h := by
    obtain ⟨h1, h2⟩ := fill_eq h chk s
    exact ⟨b, h1, h, by rw [h2]; rfl, by rw [h2]; rfl, rfl, fun _ h => h⟩

end ZeroBuffer

end Chomp
