import Verif.Lemmas.Built
import Verif.Lemmas.Buffer
import Verif.Spec.Slice

namespace Chomp.SliceStream

open Spec

theorem len_eq {s : SliceStream I} (h : ValidSlice s) (chk : Bool) :
    s.len chk = .ok (unread s).length := by
  unfold len unread
  rw [usubB_ok h.1, List.length_drop]

theorem isEmpty_eq {s : SliceStream I} (h : ValidSlice s) (chk : Bool) :
    s.isEmpty chk = .ok ((unread s).isEmpty) := by
  unfold isEmpty
  rw [len_eq h, Res.bind_ok]
  cases unread s <;> rfl

/-- `parse` without the arithmetic on the position. -/
theorem parse_eq {s : SliceStream I} (h : ValidSlice s) (chk : Bool) (f : Parser σ I T E) (w : σ) :
    s.parse chk f w =
      if unread s = [] then .ok ((.error .endOfInput, s), w)
      else f ⟨.endOfInput, unread s⟩ w >>= fun x => match x.1 with
        | .data remainder data =>
          usubB chk (unread s).length remainder.buf.length >>= fun d =>
          uaddB chk s.pos d >>= fun pos => .ok ((.ok data, { s with pos := pos }), x.2)
        | .error remainder err =>
          usubB chk (unread s).length remainder.length >>= fun d =>
          uaddB chk s.pos d >>= fun pos =>
            .ok ((.error (.parseError remainder err), { s with pos := pos }), x.2)
        | .incomplete n =>
          uaddB chk n (unread s).length >>= fun n => .ok ((.error (.incomplete n), s), x.2) := by
  unfold parse
  rw [isEmpty_eq h, M.bind_ok (M.lift_ok _ _)]
  by_cases hu : unread s = []
  · rw [if_pos hu, hu]; rfl
  · rw [if_neg hu]
    have he : (unread s).isEmpty = false := by simp [hu]
    simp only [he, Bool.false_eq_true, if_false]
    have hs : sliceFrom s.slice s.pos w = .ok (unread s, w) := by
      unfold sliceFrom
      rw [if_pos h.1]; rfl
    rw [M.bind_ok hs, M.bind_apply]
    congr 1
    funext x
    obtain ⟨r, w1⟩ := x
    have lift : ∀ {α β : Type} (x : Res α) (k : α → M σ β),
        ((M.lift x : M σ α) >>= k) w1 = x >>= fun a => k a w1 := by
      intro α β x k
      cases x <;> rfl
    cases r <;> simp only [len_eq h, lift, Res.bind_ok] <;> rfl

/-- Moving to a suffix. -/
theorem advance {s : SliceStream I} (h : ValidSlice s) (chk : Bool) (x y : List I)
    (hx : unread s = x ++ y) :
    ∃ pos, (usubB chk (unread s).length y.length >>= fun d => uaddB chk s.pos d) = .ok pos ∧
      ValidSlice { s with pos := pos } ∧ unread { s with pos := pos } = y := by
  have hl : (unread s).length = s.slice.length - s.pos := by simp [unread]
  have hl2 : (unread s).length = x.length + y.length := by rw [hx, List.length_append]
  have h1 := h.1
  have h2 := h.2
  refine ⟨s.pos + x.length, ?_, ⟨?_, h2⟩, ?_⟩
  · rw [usubB_ok (by omega), Res.bind_ok, uaddB_ok (by omega)]
    congr 2
    omega
  · dsimp only; omega
  · unfold unread at hx ⊢
    dsimp only
    rw [← List.drop_drop, hx]
    simp

end Chomp.SliceStream
