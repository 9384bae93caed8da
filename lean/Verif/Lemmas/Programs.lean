import Verif.Spec.Programs
import Verif.Lemmas.Basic

namespace Chomp.Programs

theorem bind_map (p : Parser σ I T E) (f : T → U) (g : U → Parser σ I W E) :
    Parser.bind id (Parser.map p f) g = Parser.bind id p fun t => g (f t) := by
  funext i w
  simp only [Parser.bind, Parser.map, M.bind_apply]
  cases h : p i w with
  | ok x => obtain ⟨r, w'⟩ := x; cases r <;> rfl
  | _ => rfl

theorem map_bind (p : Parser σ I T E) (g : T → Parser σ I U E) (f : U → W) :
    Parser.map (Parser.bind id p g) f = Parser.bind id p fun t => Parser.map (g t) f := by
  funext i w
  simp only [Parser.bind, Parser.map, M.bind_apply]
  cases h : p i w with
  | ok x =>
    obtain ⟨r, w'⟩ := x
    cases r with
    | data j t =>
      simp only [ParseResult.bind, M.bind_apply, Res.bind_ok]
      cases h2 : g t j w' with
      | ok y => obtain ⟨r2, w2⟩ := y; cases r2 <;> rfl
      | _ => rfl
    | _ => rfl
  | _ => rfl

theorem map_map (p : Parser σ I T E) (f : T → U) (g : U → W) :
    Parser.map (Parser.map p f) g = Parser.map p fun t => g (f t) := by
  funext i w
  simp only [Parser.map, M.bind_apply]
  cases h : p i w with
  | ok x => obtain ⟨r, w'⟩ := x; cases r <;> rfl
  | _ => rfl

theorem or_map (p q : Parser σ I T E) (f : T → U) :
    Comb.or (Parser.map p f) (Parser.map q f) = Parser.map (Comb.or p q) f := by
  funext i w
  simp only [Comb.or, Parser.map, M.bind_apply]
  cases h : p i w with
  | ok x =>
    obtain ⟨r, w'⟩ := x
    cases r with
    | incomplete n =>
      simp only [Res.bind_ok, ParseResult.map, M.pure_apply]
      split <;> rfl
    | _ => rfl
  | _ => rfl

open Chomp.Macro

/-- `let x = a; b` -/
def Let (x : String) (a b : Code) : Code := .bind (.pat [.tok (.ident x)]) a b

/-- `a; b` -/
def Then (a b : Code) : Code := .bind .wild a b

/-- `f(t)` -/
def Call (f : String) (t : Tok) : Code := .named f [[.tok t]]

variable [Build] {chk v : Bool} {ty : Ascii.IntTy} {env : Vars} {a b : Code}

theorem run_let {x : String} {p : Parser σ UInt8 T (Error UInt8)} {f : T → Val}
    {g : T → Parser σ UInt8 U (Error UInt8)} {h : U → Val}
    (ha : a.run (sem chk v ty) env = Parser.map p f)
    (hb : ∀ t, b.run (sem chk v ty) ((x, f t) :: env) = Parser.map (g t) h) :
    (Let x a b).run (sem chk v ty) env = Parser.map (Parser.bind id p g) h := by
  show Parser.bind id (a.run (sem chk v ty) env) (fun y => b.run (sem chk v ty) ((x, y) :: env)) = _
  rw [ha, bind_map, map_bind]
  congr 1
  funext t
  exact hb t

theorem run_typed {x : String} {t : List TT} {p : Parser σ UInt8 T (Error UInt8)} {f : T → Val}
    {g : T → Parser σ UInt8 U (Error UInt8)} {h : U → Val}
    (ha : a.run (sem chk v ty) env = Parser.map p f)
    (hb : ∀ t, b.run (sem chk v ty) ((x, f t) :: env) = Parser.map (g t) h) :
    (Code.bind (.typed x t) a b).run (sem chk v ty) env = Parser.map (Parser.bind id p g) h := by
  show Parser.bind id (a.run (sem chk v ty) env) (fun y => b.run (sem chk v ty) ((x, y) :: env)) = _
  rw [ha, bind_map, map_bind]
  congr 1
  funext t
  exact hb t

theorem run_then {p : Parser σ UInt8 T (Error UInt8)} {f : T → Val}
    {q : Parser σ UInt8 U (Error UInt8)} {h : U → Val}
    (ha : a.run (sem chk v ty) env = Parser.map p f)
    (hb : b.run (sem chk v ty) env = Parser.map q h) :
    (Then a b).run (sem chk v ty) env = Parser.map (Parser.andThen id p q) h := by
  show Parser.bind id (a.run (sem chk v ty) env) (fun _ => b.run (sem chk v ty) env) = _
  rw [ha, bind_map, hb]
  exact (map_bind p (fun _ => q) h).symm

theorem run_skip {p : Parser σ UInt8 T (Error UInt8)} {f : T → Val}
    {q : Parser σ UInt8 U (Error UInt8)} {h : U → Val}
    (ha : a.run (sem chk v ty) env = Parser.map p f)
    (hb : b.run (sem chk v ty) env = Parser.map q h) :
    (Code.skip a b).run (sem chk v ty) env = Parser.map (Docs.skip p q) f := by
  show Parser.bind id (a.run (sem chk v ty) env)
    (fun l => Parser.map (b.run (sem chk v ty) env) fun _ => l) = _
  rw [ha, bind_map, hb]
  unfold Docs.skip
  rw [map_bind]
  congr 1
  funext t
  rw [map_map, map_map]

theorem run_or {p q : Parser σ UInt8 T (Error UInt8)} {f : T → Val}
    (ha : a.run (sem chk v ty) env = Parser.map p f)
    (hb : b.run (sem chk v ty) env = Parser.map q f) :
    (Code.or a b).run (sem chk v ty) env = Parser.map (Comb.or p q) f := by
  show Comb.or (a.run (sem chk v ty) env) (b.run (sem chk v ty) env) = _
  rw [ha, hb, or_map]

omit [Build] in
/-- `(a, b, a + b)` -/
theorem eval_missiles (a b : UInt8) :
    (eval chk [("b", .byte b), ("a", .byte a)] (missiles.drop 16) : M σ Val) =
      Docs.addU8 chk a b >>= fun c => pure (.tuple [.byte a, .byte b, .byte c]) := by
  have h : (eval chk [("b", .byte b), ("a", .byte a)] (missiles.drop 16) : M σ Val) =
      ((Docs.addU8 chk a b >>= fun c => pure [.byte c]) >>= fun l => pure (.byte b :: l)) >>=
        (fun l => pure (.byte a :: l)) >>= fun l => pure (.tuple l) := rfl
  rw [h]
  funext w
  simp only [M.bind_apply]
  cases Docs.addU8 chk a b w <;> rfl

end Chomp.Programs
