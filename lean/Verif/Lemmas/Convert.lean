import Verif.Lemmas.SepBy
import Verif.Lemmas.Closures
import Verif.Spec.Convert

namespace Chomp.Converted

open Spec

theorem bind_data (conv : E → M σ V) (i : Input I) (t : T) (f : Input I → T → M σ (ParseResult I U V)) :
    bind conv (.data i t) f = f i t := by
  funext w
  show Res.bind (f i t w) _ = _
  cases f i t w with
  | ok x => obtain ⟨x, w'⟩ := x; cases x <;> rfl
  | _ => rfl

theorem sepThenFrom_eq (conv : N → M σ E) (p : Parser σ I U E) (sep : Parser σ I V N) :
    sepThenFrom conv p sep = sepThen id p (Closures.mapErr sep conv) := by
  funext i w
  unfold sepThenFrom sepThen Closures.mapErr
  rw [M.bind_apply]
  cases sep i w with
  | ok x =>
    obtain ⟨x, w'⟩ := x
    cases x with
    | data i' t => rfl
    | error b e =>
      simp only [Res.bind_ok, ParseResult.mapErr]
      rw [M.bind_apply]
      cases conv e w' <;> rfl
    | incomplete n => rfl
  | _ => rfl

theorem sepParser_eq (conv : N → M σ E) (p : Parser σ I U E) (sep : Parser σ I V N) :
    sepParser conv p sep = Comb.sepParser id p (Closures.mapErr sep conv) := by
  funext i w
  obtain ⟨w, f⟩ := w
  rw [Sep.sepParser_eq, ← sepThenFrom_eq]
  cases f with
  | false =>
    unfold sepParser
    rw [M.bind_ok (show (get : M (σ × Bool) (σ × Bool)) (w, false) = .ok ((w, false), (w, false)) from rfl)]
    simp only [Bool.false_eq_true, if_false]
    rw [M.bind_ok (M.pure_apply _ _)]
    simp only [Input.ret, andThen, bind_data]
    rw [M.bind_apply]
    simp only [Comb.withLocal]
    cases hp : p i w with
    | ok x =>
      obtain ⟨x, w'⟩ := x
      cases x <;> rfl
    | _ => rfl
  | true =>
    unfold sepParser
    rw [M.bind_ok (show (get : M (σ × Bool) (σ × Bool)) (w, true) = .ok ((w, true), (w, true)) from rfl)]
    simp only [if_true]
    rw [M.bind_apply]
    simp only [Comb.withLocal, sepThenFrom]
    cases hs : sep i w with
    | ok x =>
      obtain ⟨x, w'⟩ := x
      cases x with
      | data b v =>
        simp only [Res.bind_ok, ParseResult.map]
        refine (M.bind_ok (a := ParseResult.data b ()) (w' := (w', true)) rfl).trans ?_
        simp only [andThen, bind_data]
        rw [M.bind_apply]
        simp only [Comb.withLocal]
        cases hp : p b w' with
        | ok x =>
          obtain ⟨x, w'⟩ := x
          cases x <;> rfl
        | _ => rfl
      | error b e =>
        simp only [Res.bind_ok, ParseResult.map]
        refine (M.bind_ok (a := ParseResult.error b e) (w' := (w', true)) rfl).trans ?_
        simp only [andThen, bind]
        rw [M.bind_apply, M.bind_apply]
        simp only [Comb.withLocal]
        cases conv e w' <;> rfl
      | incomplete n => rfl
    | _ => rfl

end Chomp.Converted
