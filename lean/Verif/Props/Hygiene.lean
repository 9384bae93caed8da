import Verif.Model.Hygiene
import Verif.Props.Macro

/-
C107: the names which `parse!` uses itself do not meet those of the program.
-/

namespace Chomp.Props

open Chomp.Macro

variable {σ I V E : Type}

theorem locals_set_mark (ρ : Scope I V) {s : String} {m : Nat} (h : m ≠ 0) (b : Bound I V) :
    (ρ.set ⟨s, m⟩ b).locals = ρ.locals := by
  funext y
  unfold Scope.locals Scope.set
  rw [if_neg]
  rintro e
  cases e
  exact h rfl

theorem locals_set_user (ρ : Scope I V) (s : String) (b : Bound I V) :
    (ρ.set ⟨s, 0⟩ b).locals = fun y => if y = s then some b else ρ.locals y := by
  funext y
  unfold Scope.locals Scope.set
  by_cases h : y = s
  · rw [if_pos (by rw [h]), if_pos h]
  · rw [if_neg (by intro e; cases e; exact h rfl), if_neg h]

theorem locals_setAll (ρ : Scope I V) (l : List (String × V)) :
    (ρ.setAll l).locals = ρ.locals.setAll l := by
  induction l generalizing ρ with
  | nil => rfl
  | cons x l ih =>
    rw [Scope.setAll, ih, locals_set_user]
    rfl

theorem setAll_mark (ρ : Scope I V) (l : List (String × V)) {x : Name} (h : x.mark ≠ 0) :
    ρ.setAll l x = ρ x := by
  induction l generalizing ρ with
  | nil => rfl
  | cons y l ih =>
    rw [Scope.setAll, ih]
    unfold Scope.set
    rw [if_neg]
    rintro rfl
    exact h rfl

theorem args_eq (U : User σ I V E) (ρ : Scope I V) (ps : List (List TT)) :
    U.args ρ ps = evalAll U.sem ρ.locals ps := by
  induction ps with
  | nil => rfl
  | cons p ps ih =>
    rw [User.args, evalAll, ih]
    rfl

theorem eval_var (U : User σ I V E) (ρ : Scope I V) (x : Name) (m : Input I) (h : ρ x = some (.input m)) :
    Source.eval U ρ (.var x) = (pure m : M σ (Input I)) := by
  unfold Source.eval
  dsimp only
  rw [h]

/-- The expansion of a block evaluates the input expression, once and before anything else, and then is
the parser which the block means (`Code.run`, see C62) where the variables of the program are those the
program has: whichever other variables are in scope, and whatever the rules of the macro have bound to
`i` and `l`, as long as their identifiers are not those of the program (`marks` are not 0). It does not
matter whether expansions have different marks. -/
theorem C107_hygienic (U : User σ I V E) {marks : List Nat → Nat} (hm : ∀ l, marks l ≠ 0) (c : Code)
    (place : List Nat) (src : Source) (ρ : Scope I V) :
    (c.exp marks place src).eval U ρ = (do let i ← src.eval U ρ; c.run U.sem ρ.locals i) := by
  induction c generalizing place src ρ with
  | ret t e => rfl
  | err t e => rfl
  | inline s e =>
    unfold Code.exp Exp.eval Code.run
    congr 1
    funext i
    rw [locals_set_user]
    rfl
  | named f ps =>
    unfold Code.exp Exp.eval Code.run
    congr 1
    funext i
    rw [args_eq]
    rfl
  | bind v a b iha ihb =>
    unfold Code.exp Exp.eval Code.run Parser.bind
    dsimp only
    rw [iha]
    simp only [bind_assoc]
    congr 1
    funext i
    congr 1
    funext r
    congr 1
    funext m x
    rw [ihb, eval_var U _ _ m (by rw [setAll_mark _ _ (hm place)]; exact if_pos rfl), pure_bind, locals_setAll,
      locals_set_mark _ (hm place)]
    cases v <;> rfl
  | or a b iha ihb =>
    unfold Code.exp Exp.eval Code.run
    congr 1
    funext i
    congr 1
    · funext m
      rw [iha, eval_var U _ _ m (if_pos rfl), pure_bind, locals_set_mark _ (hm place)]
    · funext m
      rw [ihb, eval_var U _ _ m (if_pos rfl), pure_bind, locals_set_mark _ (hm place)]
  | skip a b iha ihb =>
    unfold Code.exp Exp.eval Code.run Parser.bind Parser.map
    dsimp only
    rw [iha]
    simp only [bind_assoc]
    congr 1
    funext i
    congr 1
    funext r
    congr 1
    funext m x
    have h1 : ((ρ.set ⟨"i", marks place⟩ (.input m)).set ⟨"l", marks place⟩ (.value x)) ⟨"i", marks place⟩ =
        some (.input m) := by
      unfold Scope.set
      rw [if_neg (by simp), if_pos rfl]
    rw [ihb, eval_var U _ _ m h1, pure_bind, locals_set_mark _ (hm place), locals_set_mark _ (hm place)]
    congr 1
    funext r
    congr 1
    funext y
    unfold Scope.value
    rw [show ((ρ.set ⟨"i", marks place⟩ (.input m)).set ⟨"l", marks place⟩ (.value x)) ⟨"l", marks place⟩ =
        some (.value x) from if_pos rfl]

/-- `parse!{input; block}` where the block means the parser `d`, which depends on the variables of the
program: the input expression is evaluated, and then `d`, both with the variables in scope where the
macro is used. -/
theorem C107_parse {R : Fragments} (L : R.Lawful) (U : User σ I V E) {marks : List Nat → Nat}
    (hm : ∀ l, marks l ≠ 0) {input ts : List TT} (hi : R.IsExpr input)
    {d : Locals I V → Parser σ I V E} (h : Means R U.sem .block ts d) :
    ∃ n e, parseText R marks n (input ++ .tok .semi :: ts) = some (.block e) ∧
      ∀ ρ, e.eval U ρ = (do let i ← U.input ρ.locals input; d ρ.locals i) := by
  obtain ⟨n, c, hc, hd⟩ := h
  have hts : ts ≠ [] := by
    rintro rfl
    cases n with
    | zero => cases hc
    | succ n => cases hc
  refine ⟨n, c.exp marks [] (.tokens input), ?_, fun ρ => ?_⟩
  · unfold parseText
    rw [L.expr_follow _ hi (.inr rfl)]
    cases ts with
    | nil => exact absurd rfl hts
    | cons t ts =>
      show (expand tables R n (.block (t :: ts))).map _ = _
      rw [show expand tables R n (.block (t :: ts)) = some c from hc]
      rfl
  · rw [C107_hygienic U hm, hd]
    rfl

/-- Which identifiers the macro takes, and what else is in scope, makes no difference. -/
theorem C107_irrelevant (U : User σ I V E) {marks marks' : List Nat → Nat} (hm : ∀ l, marks l ≠ 0)
    (hm' : ∀ l, marks' l ≠ 0) (c : Code) (input : List TT) {ρ ρ' : Scope I V}
    (h : ∀ s, ρ ⟨s, 0⟩ = ρ' ⟨s, 0⟩) :
    (c.exp marks [] (.tokens input)).eval U ρ = (c.exp marks' [] (.tokens input)).eval U ρ' := by
  have : ρ.locals = ρ'.locals := funext h
  rw [C107_hygienic U hm, C107_hygienic U hm', this]
  unfold Source.eval
  dsimp only
  rw [this]

/-- With no block after it, or only `;`, the input is what `parse!` gives. -/
theorem C107_empty {R : Fragments} (L : R.Lawful) (marks : List Nat → Nat) (n : Nat) {input : List TT}
    (hi : R.IsExpr input) :
    parseText R marks n input = some (.input (.tokens input)) ∧
    parseText R marks n (input ++ [.tok .semi]) = some (.input (.tokens input)) := by
  constructor
  · unfold parseText
    rw [show R.expr input = some (input, []) from hi]
  · unfold parseText
    rw [L.expr_follow _ hi (.inr rfl)]

/-! ### Examples -/

namespace HygieneEx

open MacroEx

/-- Variables are read by name; `decimal` takes any one token, `token` the one given. -/
def user : User Unit Nat Nat (Error Nat) where
  expr ρ
    | [.tok (.ident x)] =>
      match ρ x with
      | some (.value v) => pure v
      | _ => M.panic
    | _ => M.panic
  error _ _ := M.panic
  result _ _ := M.panic
  input ρ
    | [.tok (.ident x)] =>
      match ρ x with
      | some (.input i) => pure i
      | _ => M.panic
    | _ => M.panic
  call _ f vs :=
    match f, vs with
    | "decimal", [_] => Parsers.any
    | "token", [x] => Parsers.token true x
    | _, _ => fun _ => M.panic
  binds
    | .pat [.tok (.ident x)], v => [(x, v)]
    | _, _ => []

/-- The program has an input `i` and a number `l`. -/
def scope : Scope Nat Nat := fun x =>
  if x = ⟨"i", 0⟩ then some (.input ⟨.default, [21, 46, 9]⟩)
  else if x = ⟨"l", 0⟩ then some (.value 46) else none

/-- `let i = decimal(l) <* token(l); ret i` -/
def names : List TT :=
  .tok .kwLet :: .tok (.ident "i") :: .tok .eq :: ((call "decimal" "l" ++ toks [.lt, .star] ++ call "token" "l") ++
    toks [.semi] ++ [.tok (.ident "ret"), .tok (.ident "i")])

def namesCode : Code :=
  .bind (.pat [.tok (.ident "i")])
    (.skip (.named "decimal" [[.tok (.ident "l")]]) (.named "token" [[.tok (.ident "l")]]))
    (.ret none [.tok (.ident "i")])

theorem names_means : Means runs user.sem .block names fun ρ => namesCode.run user.sem ρ :=
  ⟨20, namesCode, rfl, fun _ => rfl⟩

/-- `parse!{i; let i = decimal(l) <* token(l); ret i}`, where both names the macro uses itself are used by
the program, one of them also in the block. -/
example : ∃ n e, parseText runs (fun _ => 1) n ([.tok (.ident "i")] ++ .tok .semi :: names) = some (.block e) ∧
    e.eval user scope () = .ok (.data ⟨.default, [9]⟩ 21, ()) := by
  obtain ⟨n, e, h1, h2⟩ := C107_parse runs_lawful user (marks := fun _ => 1) (fun _ => Nat.one_ne_zero)
    (input := [.tok (.ident "i")]) rfl names_means
  exact ⟨n, e, h1, by rw [h2]; rfl⟩

end HygieneEx

/-- If the macro's identifiers were those of the program, `token(l)` in the block
`let i = decimal(l) <* token(l); ret i` would be given what `decimal` has read instead of the `l` of the
program. -/
theorem C107_capture_witness :
    ((HygieneEx.namesCode.exp (fun _ => 0) [] (.tokens [.tok (.ident "i")])).eval HygieneEx.user
        HygieneEx.scope ()) = .ok (.error [46, 9] (.expected 21), ()) ∧
    ((HygieneEx.namesCode.exp (fun _ => 1) [] (.tokens [.tok (.ident "i")])).eval HygieneEx.user
        HygieneEx.scope ()) = .ok (.data ⟨.default, [9]⟩ 21, ()) :=
  ⟨rfl, rfl⟩

end Chomp.Props
