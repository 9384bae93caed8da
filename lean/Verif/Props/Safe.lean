import Verif.Lemmas.Safe
import Verif.Spec.Foreign

/-
C80: a `Source` is memory safe, whatever is done with it.
-/

namespace Chomp.Props

open Spec

/-! ### C80 -/

theorem safe_calls [DataSource S I] [HonestSource S I] [Buffer B I] [SafeBuffer B I] (chk : Bool)
    (s : Source S B) (h : s.Safe) (cs : List (SourceCall σ I)) (hc : ∀ c ∈ cs, c.Sound) (w : σ) :
    runCalls chk cs s w ≠ .ub ∧
    ((∀ c ∈ cs, c.Returns) → runCalls chk cs s w ≠ .div) := by
  have key := calls_tamed chk cs s w h fun k hk => hc (.read k) hk
  refine ⟨fun e => ?_, fun hr e => ?_⟩
  · rw [e] at key
    exact key hc
  · rw [e] at key
    exact key hr

/-- No sequence of calls of safe methods of a `Source` with a `FixedSizeBuffer` is undefined behaviour,
in debug and in release builds: not with a parser which leaves a slice from elsewhere, and not if
`consume` is called with more than there is. Each call returns or panics, unless the parser does not. -/
theorem C80_fixed [DataSource S I] [HonestSource S I] (chk : Bool) (size : Nat)
    (b : FixedSizeBuffer I) (hb : FixedSizeBuffer.withSize size = .ok b) (s : S)
    (cs : List (SourceCall σ I)) (hc : ∀ c ∈ cs, c.Sound) (w : σ) :
    runCalls chk cs (Source.withBuffer s b) w ≠ .ub ∧
    ((∀ c ∈ cs, c.Returns) → runCalls chk cs (Source.withBuffer s b) w ≠ .div) :=
  safe_calls chk (Source.withBuffer s b)
    ⟨show FixedSafe b from .of_inv (withSize_inv hb).1, Nat.zero_le _⟩ cs hc w

/-- The same with a `GrowingBuffer`, although the buffer alone is not safe to use that way (C65). -/
theorem C80_growing [DataSource S I] [HonestSource S I] (chk : Bool) (extra : Nat → Nat) (limit : Nat)
    (s : S) (cs : List (SourceCall σ I)) (hc : ∀ c ∈ cs, c.Sound) (w : σ) :
    runCalls chk cs (Source.withBuffer s (GrowingBuffer.withLimit extra limit : GrowingBuffer I)) w ≠ .ub ∧
    ((∀ c ∈ cs, c.Returns) →
      runCalls chk cs (Source.withBuffer s (GrowingBuffer.withLimit extra limit : GrowingBuffer I)) w ≠
        .div) :=
  safe_calls chk (Source.withBuffer s (GrowingBuffer.withLimit extra limit : GrowingBuffer I))
    ⟨show GrowingSafe _ from .of_inv (GrowingBuffer.withLimit_inv extra limit), Nat.zero_le _⟩ cs hc w

namespace SafeExample

/-- Read, consume too much, go back by leaving a foreign slice, read again, look. -/
def calls : List (SourceCall Unit Nat) :=
  [.fill, .consume 1, .parse (leaves (E := Unit) [7, 8, 9] 'x'), .fill, .consume usizeMax, .read 5, .buffer]

theorem calls_sound : ∀ c ∈ calls, c.Sound := by
  intro c hc
  simp only [calls, List.mem_cons, List.not_mem_nil, or_false] at hc
  rcases hc with rfl | rfl | rfl | rfl | rfl | rfl | rfl
  · trivial
  · trivial
  · intro i w
    simp [leaves, M.pure_apply]
  · trivial
  · trivial
  · show 5 ≤ isizeMax
    decide
  · trivial

example (chk : Bool) : runCalls chk calls (Source.withBuffer (⟨[.data 1 [2, 3, 4]]⟩ : Script Nat)
    (GrowingBuffer.withLimit (fun _ => 2) 0)) () ≠ .ub :=
  (C80_growing chk _ 0 _ calls calls_sound ()).1

example (chk : Bool) : runCalls chk calls (Source.withBuffer (⟨[.data 1 [2, 3, 4]]⟩ : Script Nat)
    (⟨[none, none], 0, 0⟩ : FixedSizeBuffer Nat)) () ≠ .ub :=
  (C80_fixed chk 2 _ rfl _ calls calls_sound ()).1

end SafeExample

end Chomp.Props
