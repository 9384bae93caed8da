import Verif.Rust.MacroLemmas
import Verif.Lemmas.Macro

/-
The text of `__parse_internal!` expands to what the model says (for C112).
-/

namespace Chomp.MacroRules

open Chomp.Macro

variable {P : Parse} {R : Fragments}

/-! ### Expanding -/

mutual

theorem user_fixed (f : String → List Tree → Option (List Tree)) : ∀ t : TT, (user t).expand f = some (user t)
  | .tok t => by rw [user, Tree.expand]
  | .group d ts => by rw [user, Tree.expand, users_fixed f ts]; rfl

theorem users_fixed (f : String → List Tree → Option (List Tree)) : ∀ ts : List TT, expands f (users ts) = some (users ts)
  | [] => by rw [users, expands]
  | t :: ts => by rw [users, expands, user_fixed f t, users_fixed f ts]; rfl

end

theorem expands_append (f : String → List Tree → Option (List Tree)) (a b : List Tree) :
    expands f (a ++ b) = (do let x ← expands f a; let y ← expands f b; some (x ++ y)) := by
  induction a with
  | nil => simp [expands]
  | cons t a ih =>
    rw [List.cons_append, expands, expands, ih]
    cases t.expand f <;> cases expands f a <;> cases expands f b <;> rfl

theorem source_fixed (f : String → List Tree → Option (List Tree)) (src : Macro.Source) :
    (source src).expand f = some (source src) := by
  cases src with
  | tokens ts => rw [source, Tree.expand, users_fixed]; rfl
  | var x => simp [source, Tree.expand, expands, Name.tree]

theorem variable_fixed (f : String → List Tree → Option (List Tree)) (v : Var) :
    expands f (variable_ v) = some (variable_ v) := by
  cases v <;> simp [variable_, expands, Tree.expand, users_fixed]

theorem frags_fixed (f : String → List Tree → Option (List Tree)) (ps : List (List TT)) :
    expands f ((ps.map fun p => .frag .expr (users p)).intersperse (key .comma))
      = some ((ps.map fun p => .frag .expr (users p)).intersperse (key .comma)) := by
  induction ps with
  | nil => simp [expands]
  | cons p ps ih =>
    cases ps with
    | nil => simp [expands, Tree.expand, users_fixed]
    | cons q ps =>
      simp only [List.map_cons, List.intersperse_cons_cons, expands, Tree.expand, users_fixed] at ih ⊢
      rw [ih]
      rfl

mutual

theorem expand_le {f g : String → List Tree → Option (List Tree)} (h : ∀ m ts out, f m ts = some out → g m ts = some out) :
    ∀ (t u : Tree), t.expand f = some u → t.expand g = some u
  | .tok _ _, u, e => by rw [Tree.expand] at e ⊢; exact e
  | .group _ ts, u, e => by
    rw [Tree.expand, Option.map_eq_some_iff] at e
    obtain ⟨us, e, rfl⟩ := e
    rw [Tree.expand, expands_le h ts us e]; rfl
  | .frag _ ts, u, e => by
    rw [Tree.expand, Option.map_eq_some_iff] at e
    obtain ⟨us, e, rfl⟩ := e
    rw [Tree.expand, expands_le h ts us e]; rfl
  | .call m ts, u, e => by
    rw [Tree.expand, Option.map_eq_some_iff] at e
    obtain ⟨us, e, rfl⟩ := e
    rw [Tree.expand, h m ts us e]; rfl

theorem expands_le {f g : String → List Tree → Option (List Tree)} (h : ∀ m ts out, f m ts = some out → g m ts = some out) :
    ∀ (ts us : List Tree), expands f ts = some us → expands g ts = some us
  | [], us, e => by rw [expands] at e ⊢; exact e
  | t :: ts, us, e => by
    rw [expands] at e ⊢
    cases ht : t.expand f with
    | none => rw [ht] at e; cases e
    | some u =>
      cases hts : expands f ts with
      | none => rw [ht, hts] at e; cases e
      | some vs =>
        rw [ht, hts] at e
        rw [expand_le h t u ht, expands_le h ts vs hts]
        exact e

end

theorem invoke_succ {n : Nat} {m : String} {ts out : List Tree} (h : invoke P n m ts = some out) :
    invoke P (n + 1) m ts = some out := by
  induction n generalizing m ts out with
  | zero => rw [invoke] at h; cases h
  | succ n ih =>
    rw [invoke] at h ⊢
    cases ha : Text.find m with
    | none => rw [ha] at h; cases h
    | some arms =>
      cases hb : firstArm P arms ts with
      | none => rw [ha] at h; simp [hb] at h
      | some o =>
        simp only [ha, hb, Option.bind_eq_bind, Option.bind_some] at h ⊢
        exact expands_le (fun _ _ _ => ih) o out h

theorem invoke_mono {n k : Nat} (hk : n ≤ k) {m : String} {ts out : List Tree} (h : invoke P n m ts = some out) :
    invoke P k m ts = some out := by
  induction hk with
  | refl => exact h
  | step _ ih => exact invoke_succ ih

theorem wrap_wrap (ts : List Tree) : wrap [wrap ts] = wrap ts := by
  rw [wrap.eq_def ts]
  split <;> rfl

/-- What an invocation of `__parse_internal!` expands to, as an expression. -/
def result (P : Parse) (n : Nat) (x : Tree) (K : Call) : Option Tree := (invoke P n PI (args x K)).map wrap

theorem result_mono {n k : Nat} (hk : n ≤ k) {x : Tree} {K : Call} {t : Tree} (h : result P n x K = some t) :
    result P k x K = some t := by
  rw [result, Option.map_eq_some_iff] at h
  obtain ⟨out, h, rfl⟩ := h
  rw [result, invoke_mono hk h]; rfl

theorem result_zero (x : Tree) (K : Call) : result P 0 x K = none := by
  rw [result, invoke]; rfl

theorem result_succ (n : Nat) (x : Tree) (K : Call) :
    result P (n + 1) x K = ((firstArm P Text.parseInternal (args x K)).bind (expands (invoke P n))).map wrap := by
  rw [result, invoke]; rfl

theorem call_expand (n : Nat) (x : Tree) (K : Call) : (Tree.call PI (args x K)).expand (invoke P n) = result P n x K := by
  rw [Tree.expand]; rfl

/-- The expression which the model gives. -/
def modelled (c : Code) (pl : List Nat) (src : Macro.Source) : Tree := .frag .expr (text (c.exp (fun _ => 1) pl src))

/-- The text and the model give the same. -/
def Same (P : Parse) (n : Nat) (x : Tree) (src : Macro.Source) (K : Call) (c : Code) : Prop :=
  ∀ pl, result P n x K = some (modelled c pl src)

theorem one_call (n : Nat) (x : Tree) (K : Call) : (expands (invoke P n) [.call PI (args x K)]).map wrap = result P n x K := by
  rw [expands, call_expand, expands]
  cases h : result P n x K with
  | none => rfl
  | some t =>
    rw [result, Option.map_eq_some_iff] at h
    obtain ⟨out, _, rfl⟩ := h
    exact congrArg some (wrap_wrap out)

theorem isInput_source (hP : Extends R P) (src : Macro.Source) : IsInput P (source src) src where
  begin := by cases src <;> rfl
  not_at := by intro b; cases src <;> simp [source]
  parse := by intro r hr; cases src <;> exact hP.expr_again _ hr
  fixed := fun f => source_fixed f src

theorem isInput_i (hP : Extends R P) : IsInput P i (.var ⟨"i", 1⟩) where
  begin := rfl
  not_at := by intro b; simp
  parse := by intro r hr; exact hP.expr_name "i" hr
  fixed := fun f => rfl

/-! ### `__parse_internal_or!` -/

theorem firstArm_or (hP : Extends R P) (src : Macro.Source) (A B : List Tree) :
    firstArm P Text.parseInternalOr [source src, key .comma, key .bar, i, key .bar, .call PI A, key .comma, key .bar, i,
      key .bar, .call PI B] = some [key (.other "$crate"), key (.other "::"), key (.ident "combinators"), key (.other "::"),
        key (.ident "or"), .group .paren [source src, key .comma, .frag .expr [key .bar, i, key .bar, .call PI A], key .comma,
          .frag .expr [key .bar, i, key .bar, .call PI B]]] := by
  rw [Text.parseInternalOr, firstArm, (isInput_source hP src).run _ _ _ (show Ends (key .comma :: _) from .inr rfl), run_tok,
    if_pos rfl, run_frag _ _ (.inl rfl) _ _ _ _ rfl, hP.closure _ _ _ (show Ends (key .comma :: _) from .inr rfl)]
  have h1 := run_skip (P := P) (start [.tok .comma, .var "rhs" .expr] ([] ++ [("input", source src)] ++
    [("lhs", .frag .expr [key .bar, i, key .bar, .call PI A])])) [i, key .bar, .call PI A]
    [key .comma, key .bar, i, key .bar, .call PI B]
  simp only [List.length_cons, List.length_nil, List.cons_append, List.nil_append] at h1
  dsimp only [List.cons_append, List.nil_append]
  rw [h1, run_tok, if_pos rfl, run_frag _ _ (.inl rfl) _ _ _ _ rfl, hP.closure _ _ _ (show Ends [] from trivial)]
  have h2 := run_skip (P := P) (start [] ([("input", source src)] ++
    [("lhs", .frag .expr [key .bar, i, key .bar, .call PI A])] ++
    [("rhs", .frag .expr [key .bar, i, key .bar, .call PI B])])) [i, key .bar, .call PI B] []
  simp only [List.length_cons, List.length_nil, List.cons_append, List.nil_append] at h2
  dsimp only [List.cons_append, List.nil_append]
  rw [h2, run_end_nil]
  simp [trees, Tpl.trees, one_cons]

theorem or_expand (hP : Extends R P) (n : Nat) (src : Macro.Source) (K L : Call) :
    (expands (invoke P (n + 1)) [.call "__parse_internal_or" [source src, key .comma, key .bar, i, key .bar, .call PI (args i K),
      key .comma, key .bar, i, key .bar, .call PI (args i L)]]).map wrap
      = (do
        let a ← result P n i K
        let b ← result P n i L
        some (.frag .expr [key (.other "$crate"), key (.other "::"), key (.ident "combinators"), key (.other "::"),
        key (.ident "or"), .group .paren [source src, key .comma, .frag .expr [key .bar, i, key .bar, a], key .comma,
          .frag .expr [key .bar, i, key .bar, b]]])) := by
  rw [expands, Tree.expand, invoke]
  simp only [Text.find, Option.bind_eq_bind, Option.bind_some, firstArm_or hP]
  simp only [expands, Tree.expand, source_fixed, Option.bind_eq_bind, Option.bind_some]
  rw [← result, ← result]
  cases result P n i K with
  | none => rfl
  | some a =>
    cases result P n i L with
    | none => rfl
    | some b => rfl

/-! ### One invocation -/

/-- `a.bind(|i, v| b)` -/
def bindTree (a : Tree) (v : Var) (b : Tree) : Tree :=
  .frag .expr [a, key (.other "."), key (.ident "bind"),
    .group .paren ([key .bar, i, key .comma] ++ variable_ v ++ [key .bar, b])]

/-- `or(src, |i| a, |i| b)` -/
def orTree (src : Macro.Source) (a b : Tree) : Tree :=
  .frag .expr [key (.other "$crate"), key (.other "::"), key (.ident "combinators"), key (.other "::"),
    key (.ident "or"), .group .paren [source src, key .comma, .frag .expr [key .bar, i, key .bar, a], key .comma,
      .frag .expr [key .bar, i, key .bar, b]]]

/-- `a.bind(|i, l| b.map(|_| l))` -/
def skipTree (a b : Tree) : Tree :=
  .frag .expr [a, key (.other "."), key (.ident "bind"),
    .group .paren [key .bar, i, key .comma, key (.ident "l"), key .bar, b, key (.other "."), key (.ident "map"),
      .group .paren [key .bar, key (.other "_"), key .bar, key (.ident "l")]]]

theorem result_statement (hP : Extends R P) (n : Nat) (x : Tree) (v : Var) (data ts : List TT) :
    result P (n + 1) x (.statement v data ts) = (match firstRule [.semi] tables.statement ts with
      | none => none
      | some (.stop y) => result P n x (.bind v (data ++ y) [])
      | some (.sep y tail) => result P n x (.bind v (data ++ y) tail)
      | some (.more y tail) => result P n x (.statement v (data ++ y) tail)) := by
  rw [result_succ, firstArm_statement hP]
  cases firstRule [.semi] tables.statement ts with
  | none => rfl
  | some f => cases f <;> exact one_call _ _ _

theorem bind_expand (n : Nat) (x : Tree) (v : Var) (K L : Call) :
    (expands (invoke P n) [.call PI (args x K), key (.other "."), key (.ident "bind"),
      .group .paren ([key .bar, i, key .comma] ++ variable_ v ++ [key .bar, .call PI (args i L)])]).map wrap
      = (do
        let a ← result P n x K
        let b ← result P n i L
        some (bindTree a v b)) := by
  simp only [expands, Tree.expand, expands_append, variable_fixed, Option.bind_eq_bind, Option.bind_some]
  rw [← result, ← result]
  cases result P n x K with
  | none => rfl
  | some a =>
    cases result P n i L with
    | none => rfl
    | some b => simp [wrap, bindTree]

theorem skip_expand (n : Nat) (x : Tree) (K L : Call) :
    (expands (invoke P n) [.call PI (args x K), key (.other "."), key (.ident "bind"),
      .group .paren [key .bar, i, key .comma, key (.ident "l"), key .bar, .call PI (args i L),
        key (.other "."), key (.ident "map"), .group .paren [key .bar, key (.other "_"), key .bar, key (.ident "l")]]]).map wrap
      = (do
        let a ← result P n x K
        let b ← result P n i L
        some (skipTree a b)) := by
  simp only [expands, Tree.expand, Option.bind_eq_bind, Option.bind_some]
  rw [← result, ← result]
  cases result P n x K with
  | none => rfl
  | some a =>
    cases result P n i L with
    | none => rfl
    | some b => simp [wrap, skipTree]

theorem result_bind (hP : Extends R P) (n : Nat) {x : Tree} {src : Macro.Source} (h : IsInput P x src) (v : Var)
    (exp tail : List TT) :
    result P (n + 1) x (.bind v exp tail) = (match exp, tail, v with
      | [], _, _ => none
      | exp, [], .wild => result P n (source src) (.expr [] exp)
      | _, [], _ => none
      | exp, tail, v => do
        let a ← result P n (source src) (.expr [] exp)
        let b ← result P n i (.block tail)
        some (bindTree a v b)) := by
  rw [result_succ, firstArm_bind hP h]
  cases exp with
  | nil => rfl
  | cons e exp =>
    cases tail with
    | nil =>
      cases v with
      | wild => exact one_call _ _ _
      | _ => rfl
    | cons t tail => cases v <;> exact bind_expand _ _ _ _ _

theorem result_expr (hP : Extends R P) (n : Nat) {x : Tree} {src : Macro.Source} (h : IsInput P x src) (lhs ts : List TT) :
    result P (n + 1) x (.expr lhs ts) = (match firstRule [.shr] tables.expr ts with
      | none => none
      | some (.stop y) => result P n (source src) (.alt [] (lhs ++ y))
      | some (.sep y tail) => do
        let a ← result P n (source src) (.alt [] (lhs ++ y))
        let b ← result P n i (.expr [] tail)
        some (bindTree a .wild b)
      | some (.more y tail) => result P n (source src) (.expr (lhs ++ y) tail)) := by
  rw [result_succ, firstArm_expr hP h]
  cases firstRule [.shr] tables.expr ts with
  | none => rfl
  | some f =>
    cases f with
    | sep y tail => exact bind_expand _ _ .wild _ _
    | _ => exact one_call _ _ _

theorem result_alt (hP : Extends R P) (n : Nat) {x : Tree} {src : Macro.Source} (h : IsInput P x src) (lhs ts : List TT) :
    result P (n + 2) x (.alt lhs ts) = (match firstRule [.lt, .bar, .gt] tables.alt ts with
      | none => none
      | some (.stop y) => result P (n + 1) (source src) (.skip [] (lhs ++ y))
      | some (.sep y tail) => do
        let a ← result P n i (.skip [] (lhs ++ y))
        let b ← result P n i (.alt [] tail)
        some (orTree src a b)
      | some (.more y tail) => result P (n + 1) (source src) (.alt (lhs ++ y) tail)) := by
  rw [result_succ, firstArm_alt hP h]
  cases firstRule [.lt, .bar, .gt] tables.alt ts with
  | none => rfl
  | some f =>
    cases f with
    | sep y tail => exact or_expand hP _ _ _ _
    | _ => exact one_call _ _ _

theorem result_alt_one (hP : Extends R P) {x : Tree} {src : Macro.Source} (h : IsInput P x src) (lhs ts : List TT) :
    result P 1 x (.alt lhs ts) = none := by
  rw [result_succ, firstArm_alt hP h]
  cases firstRule [.lt, .bar, .gt] tables.alt ts with
  | none => rfl
  | some f => cases f <;> rfl

theorem result_skip (hP : Extends R P) (n : Nat) {x : Tree} {src : Macro.Source} (h : IsInput P x src) (lhs ts : List TT) :
    result P (n + 1) x (.skip lhs ts) = (match firstRule [.lt, .star] tables.skip ts with
      | none => none
      | some (.stop y) => result P n (source src) (.term (lhs ++ y))
      | some (.sep y tail) => do
        let a ← result P n (source src) (.term (lhs ++ y))
        let b ← result P n i (.skip [] tail)
        some (skipTree a b)
      | some (.more y tail) => result P n (source src) (.skip (lhs ++ y) tail)) := by
  rw [result_succ, firstArm_skipping hP h]
  cases firstRule [.lt, .star] tables.skip ts with
  | none => rfl
  | some f =>
    cases f with
    | sep y tail => exact skip_expand _ _ _ _
    | _ => exact one_call _ _ _

/-- Terms are written without the names of the rules. -/
theorem term_done {ts : List TT} {c : Code} (h : term R ts = some (.done c)) :
    (∃ t e, c = .ret t e) ∨ (∃ t e, c = .err t e) ∨ (∃ s e, c = .inline s e) ∨ (∃ f ps, c = .named f ps) := by
  rw [term.eq_def] at h
  split at h
  all_goals first
    | (simp at h; done)
    | (rw [Option.map_eq_some_iff] at h
       obtain ⟨y, _, h⟩ := h
       injection h with h
       subst h
       simp)
    | (split at h
       · injection h with h
         injection h with h
         subst h
         simp
       · cases h)

theorem result_term (hR : R.Lawful) (hP : Extends R P) (n : Nat) {x : Tree} {src : Macro.Source} (h : IsInput P x src)
    (ts : List TT) (pl : List Nat) :
    result P (n + 1) x (.term ts) = (match term R ts with
      | none => none
      | some (.expr inner) => result P n (source src) (.expr [] inner)
      | some (.done c) => some (modelled c pl src)) := by
  rw [result_succ, firstArm_term hR hP h]
  cases ht : term R ts with
  | none => rfl
  | some t =>
    cases t with
    | expr inner => exact one_call _ _ _
    | done c =>
      simp only [Option.map_some, Option.bind_some, termOut]
      rcases term_done ht with ⟨t, e, rfl⟩ | ⟨t, e, rfl⟩ | ⟨s, e, rfl⟩ | ⟨f, ps, rfl⟩
      · cases t <;> simp [Code.exp, text, method, expands, Tree.expand, source_fixed, users_fixed, wrap, modelled]
      · cases t <;> simp [Code.exp, text, method, expands, Tree.expand, source_fixed, users_fixed, wrap, modelled]
      · simp [Code.exp, text, expands, Tree.expand, source_fixed, users_fixed, wrap, modelled, Name.tree]
      · simp [Code.exp, text, expands, Tree.expand, source_fixed, wrap, modelled, frags_fixed]

theorem result_block (hR : R.Lawful) (hP : Extends R P) (n : Nat) {x : Tree} {src : Macro.Source} (h : IsInput P x src)
    {ts : List TT} (hn : ts ≠ []) :
    result P (n + 1) x (.block ts) = (match statement R ts with
      | none => none
      | some (v, tail) => result P n (source src) (.statement v [] tail)) ∨
    Stuck ts ∧ result P (n + 1) x (.block ts) = result P n (source src) (.statement .wild [] ts) := by
  rw [result_succ, args]
  rcases firstArm_block hR hP (h.begins (show Ends (key .semi :: users ts) from .inl rfl)) hn with h | ⟨hs, h⟩
  · refine .inl ?_
    rw [h]
    cases statement R ts with
    | none => rfl
    | some vt => exact one_call _ _ _
  · refine .inr ⟨hs, ?_⟩
    rw [h]
    exact one_call _ _ _

/-- Where there is a rule although there should not be one, the expansion fails later. -/
theorem stuck_statement (hR : R.Lawful) (hP : Extends R P) {ts : List TT} (h : Stuck ts) : statement R ts = none := by
  rcases h with rfl | ⟨x, rfl⟩
  · exact statement_pat_none (pat_nil hR hP)
  · exact statement_ty_none (hR.pat_colon x []) (by simp) (ty_nil hR hP)

theorem stuck_expand {ts : List TT} (h : Stuck ts) (n : Nat) : expand tables R n (.statement .wild [] ts) = none := by
  have : ∀ k, expand tables R (n + k) (.statement .wild [] ts) = none → expand tables R n (.statement .wild [] ts) = none := by
    intro k hk
    cases he : expand tables R n (.statement .wild [] ts) with
    | none => rfl
    | some c => rw [expand_mono (Nat.le_add_right n k) he] at hk; cases hk
  apply this 6
  rcases h with rfl | ⟨x, rfl⟩ <;>
    simp [expand, firstRule, tables, Rule.apply, literal, term]

/-! ### All invocations -/

theorem modelled_bind (a b : Code) (v : Var) (pl : List Nat) (src : Macro.Source) :
    modelled (.bind v a b) pl src = bindTree (modelled a (0 :: pl) src) v (modelled b (1 :: pl) (.var ⟨"i", 1⟩)) := rfl

theorem modelled_or (a b : Code) (pl : List Nat) (src : Macro.Source) :
    modelled (.or a b) pl src = orTree src (modelled a (0 :: pl) (.var ⟨"i", 1⟩)) (modelled b (1 :: pl) (.var ⟨"i", 1⟩)) := rfl

theorem modelled_skip (a b : Code) (pl : List Nat) (src : Macro.Source) :
    modelled (.skip a b) pl src = skipTree (modelled a (0 :: pl) src) (modelled b (1 :: pl) (.var ⟨"i", 1⟩)) := rfl

/-- What the model expands, the text expands in the same way. -/
theorem forward (hR : R.Lawful) (hP : Extends R P) (n : Nat) : ∀ (K : Call) (x : Tree) (src : Macro.Source) (c : Code),
    IsInput P x src → K ≠ .block [] → expand tables R n K = some c → ∀ pl, result P (2 * n) x K = some (modelled c pl src) := by
  induction n with
  | zero => intro K x src c _ _ h; rw [expand] at h; cases h
  | succ n ih =>
    intro K x src c hx hK h pl
    have ihs : ∀ K c, K ≠ .block [] → expand tables R n K = some c → ∀ pl,
        result P (2 * n + 1) (source src) K = some (modelled c pl src) := fun K c hK h pl =>
      result_mono (Nat.le_succ _) (ih K _ _ c (isInput_source hP src) hK h pl)
    have ihi : ∀ K c, K ≠ .block [] → expand tables R n K = some c → ∀ pl,
        result P (2 * n + 1) i K = some (modelled c pl (.var ⟨"i", 1⟩)) := fun K c hK h pl =>
      result_mono (Nat.le_succ _) (ih K _ _ c (isInput_i hP) hK h pl)
    have e2 : 2 * (n + 1) = 2 * n + 1 + 1 := by omega
    rw [e2]
    cases K with
    | block ts =>
      have hn : ts ≠ [] := by rintro rfl; exact hK rfl
      rw [expand] at h
      rcases result_block hR hP (2 * n + 1) hx hn with e | ⟨hs, _⟩
      · rw [e]
        cases hst : statement R ts with
        | none => rw [hst] at h; cases h
        | some vt =>
          rw [hst] at h
          exact ihs _ _ (by simp) h pl
      · rw [stuck_statement hR hP hs] at h; cases h
    | statement v data ts =>
      rw [expand] at h
      rw [result_statement hP]
      cases hf : firstRule [.semi] tables.statement ts with
      | none => rw [hf] at h; cases h
      | some f =>
        rw [hf] at h
        cases f <;> exact result_mono (Nat.le_succ _) (ih _ _ _ _ hx (by simp) h pl)
    | bind v exp tail =>
      rw [expand.eq_def] at h
      rw [result_bind hP _ hx]
      dsimp only at h
      cases exp with
      | nil => cases h
      | cons e exp =>
        cases tail with
        | nil =>
          cases v with
          | wild => exact ihs _ _ (by simp) h pl
          | _ => cases h
        | cons t tail =>
          have h : (do
              let a ← expand tables R n (.expr [] (e :: exp))
              let b ← expand tables R n (.block (t :: tail))
              some (Code.bind v a b)) = some c := by cases v <;> exact h
          have goal : (do
              let a ← result P (2 * n + 1) (source src) (.expr [] (e :: exp))
              let b ← result P (2 * n + 1) i (.block (t :: tail))
              some (bindTree a v b)) = some (modelled c pl src) := by
            cases ha : expand tables R n (.expr [] (e :: exp)) with
            | none => rw [ha] at h; cases h
            | some a =>
              cases hb : expand tables R n (.block (t :: tail)) with
              | none => rw [ha, hb] at h; cases h
              | some b =>
                rw [ha, hb] at h
                cases h
                rw [ihs _ _ (by simp) ha (0 :: pl), ihi _ _ (by simp) hb (1 :: pl)]
                rfl
          cases v <;> exact goal
    | expr lhs ts =>
      rw [expand] at h
      rw [result_expr hP _ hx]
      cases hf : firstRule [.shr] tables.expr ts with
      | none => rw [hf] at h; cases h
      | some f =>
        rw [hf] at h
        cases f with
        | sep y tail =>
          dsimp only at h ⊢
          cases ha : expand tables R n (.alt [] (lhs ++ y)) with
          | none => rw [ha] at h; cases h
          | some a =>
            cases hb : expand tables R n (.expr [] tail) with
            | none => rw [ha, hb] at h; cases h
            | some b =>
              rw [ha, hb] at h
              cases h
              rw [ihs _ _ (by simp) ha (0 :: pl), ihi _ _ (by simp) hb (1 :: pl)]
              rfl
        | _ => exact ihs _ _ (by simp) h pl
    | alt lhs ts =>
      rw [expand] at h
      rw [result_alt hP _ hx]
      cases hf : firstRule [.lt, .bar, .gt] tables.alt ts with
      | none => rw [hf] at h; cases h
      | some f =>
        rw [hf] at h
        cases f with
        | sep y tail =>
          dsimp only at h ⊢
          cases ha : expand tables R n (.skip [] (lhs ++ y)) with
          | none => rw [ha] at h; cases h
          | some a =>
            cases hb : expand tables R n (.alt [] tail) with
            | none => rw [ha, hb] at h; cases h
            | some b =>
              rw [ha, hb] at h
              cases h
              rw [ih _ _ _ _ (isInput_i hP) (by simp) ha (0 :: pl), ih _ _ _ _ (isInput_i hP) (by simp) hb (1 :: pl)]
              rfl
        | _ => exact ihs _ _ (by simp) h pl
    | skip lhs ts =>
      rw [expand] at h
      rw [result_skip hP _ hx]
      cases hf : firstRule [.lt, .star] tables.skip ts with
      | none => rw [hf] at h; cases h
      | some f =>
        rw [hf] at h
        cases f with
        | sep y tail =>
          dsimp only at h ⊢
          cases ha : expand tables R n (.term (lhs ++ y)) with
          | none => rw [ha] at h; cases h
          | some a =>
            cases hb : expand tables R n (.skip [] tail) with
            | none => rw [ha, hb] at h; cases h
            | some b =>
              rw [ha, hb] at h
              cases h
              rw [ihs _ _ (by simp) ha (0 :: pl), ihi _ _ (by simp) hb (1 :: pl)]
              rfl
        | _ => exact ihs _ _ (by simp) h pl
    | term ts =>
      rw [expand] at h
      rw [result_term hR hP _ hx ts pl]
      cases ht : term R ts with
      | none => rw [ht] at h; cases h
      | some t =>
        rw [ht] at h
        cases t with
        | expr inner => exact ihs _ _ (by simp) h pl
        | done c' => cases h; rfl

/-- What the text expands, the model expands in the same way. -/
theorem backward (hR : R.Lawful) (hP : Extends R P) (n : Nat) : ∀ (K : Call) (x : Tree) (src : Macro.Source) (out : Tree),
    IsInput P x src → K ≠ .block [] → result P n x K = some out →
    ∃ c, expand tables R n K = some c ∧ ∀ pl, out = modelled c pl src := by
  induction n using Nat.strongRecOn with
  | ind n ih =>
    intro K x src out hx hK h
    cases n with
    | zero => rw [result_zero] at h; cases h
    | succ n =>
    have ihx := fun K (hK : K ≠ .block []) out h => ih n (Nat.lt_succ_self n) K x src out hx hK h
    have ihs := fun K (hK : K ≠ .block []) out h => ih n (Nat.lt_succ_self n) K _ src out (isInput_source hP src) hK h
    have ihi := fun K (hK : K ≠ .block []) out h => ih n (Nat.lt_succ_self n) K _ _ out (isInput_i hP) hK h
    cases K with
    | block ts =>
      have hn : ts ≠ [] := by rintro rfl; exact hK rfl
      rw [expand]
      rcases result_block hR hP n hx hn with e | ⟨hs, e⟩
      · rw [e] at h
        cases hst : statement R ts with
        | none => rw [hst] at h; cases h
        | some vt =>
          rw [hst] at h
          exact ihs _ (by simp) _ h
      · rw [e] at h
        obtain ⟨c, hc, _⟩ := ihs _ (by simp) _ h
        rw [stuck_expand hs] at hc
        cases hc
    | statement v data ts =>
      rw [expand]
      rw [result_statement hP] at h
      cases hf : firstRule [.semi] tables.statement ts with
      | none => rw [hf] at h; cases h
      | some f =>
        rw [hf] at h
        cases f <;> exact ihx _ (by simp) _ h
    | bind v exp tail =>
      rw [expand.eq_def]
      rw [result_bind hP _ hx] at h
      dsimp only
      cases exp with
      | nil => cases h
      | cons e exp =>
        cases tail with
        | nil =>
          cases v with
          | wild => exact ihs _ (by simp) _ h
          | _ => cases h
        | cons t tail =>
          have h : (do
              let a ← result P n (source src) (.expr [] (e :: exp))
              let b ← result P n i (.block (t :: tail))
              some (bindTree a v b)) = some out := by cases v <;> exact h
          have goal : ∃ c, (do
              let a ← expand tables R n (.expr [] (e :: exp))
              let b ← expand tables R n (.block (t :: tail))
              some (Code.bind v a b)) = some c ∧ ∀ pl, out = modelled c pl src := by
            cases ha : result P n (source src) (.expr [] (e :: exp)) with
            | none => rw [ha] at h; cases h
            | some a =>
              cases hb : result P n i (.block (t :: tail)) with
              | none => rw [ha, hb] at h; cases h
              | some b =>
                rw [ha, hb] at h
                cases h
                obtain ⟨ca, ha, ea⟩ := ihs _ (by simp) _ ha
                obtain ⟨cb, hb, eb⟩ := ihi _ (by simp) _ hb
                refine ⟨.bind v ca cb, by rw [ha, hb]; rfl, fun pl => ?_⟩
                rw [modelled_bind, ← ea, ← eb]
          cases v <;> exact goal
    | expr lhs ts =>
      rw [expand]
      rw [result_expr hP _ hx] at h
      cases hf : firstRule [.shr] tables.expr ts with
      | none => rw [hf] at h; cases h
      | some f =>
        rw [hf] at h
        cases f with
        | sep y tail =>
          dsimp only at h ⊢
          cases ha : result P n (source src) (.alt [] (lhs ++ y)) with
          | none => rw [ha] at h; cases h
          | some a =>
            cases hb : result P n i (.expr [] tail) with
            | none => rw [ha, hb] at h; cases h
            | some b =>
              rw [ha, hb] at h
              cases h
              obtain ⟨ca, ha, ea⟩ := ihs _ (by simp) _ ha
              obtain ⟨cb, hb, eb⟩ := ihi _ (by simp) _ hb
              refine ⟨.bind .wild ca cb, by rw [ha, hb]; rfl, fun pl => ?_⟩
              rw [modelled_bind, ← ea, ← eb]
        | _ => exact ihs _ (by simp) _ h
    | alt lhs ts =>
      rw [expand]
      cases n with
      | zero => rw [result_alt_one hP hx] at h; cases h
      | succ n =>
      rw [result_alt hP _ hx] at h
      cases hf : firstRule [.lt, .bar, .gt] tables.alt ts with
      | none => rw [hf] at h; cases h
      | some f =>
        rw [hf] at h
        cases f with
        | sep y tail =>
          dsimp only at h ⊢
          cases ha : result P n i (.skip [] (lhs ++ y)) with
          | none => rw [ha] at h; cases h
          | some a =>
            cases hb : result P n i (.alt [] tail) with
            | none => rw [ha, hb] at h; cases h
            | some b =>
              rw [ha, hb] at h
              cases h
              obtain ⟨ca, ha, ea⟩ := ihi _ (by simp) _ (result_mono (Nat.le_succ n) ha)
              obtain ⟨cb, hb, eb⟩ := ihi _ (by simp) _ (result_mono (Nat.le_succ n) hb)
              refine ⟨.or ca cb, by rw [ha, hb]; rfl, fun pl => ?_⟩
              rw [modelled_or, ← ea, ← eb]
        | _ => exact ihs _ (by simp) _ h
    | skip lhs ts =>
      rw [expand]
      rw [result_skip hP _ hx] at h
      cases hf : firstRule [.lt, .star] tables.skip ts with
      | none => rw [hf] at h; cases h
      | some f =>
        rw [hf] at h
        cases f with
        | sep y tail =>
          dsimp only at h ⊢
          cases ha : result P n (source src) (.term (lhs ++ y)) with
          | none => rw [ha] at h; cases h
          | some a =>
            cases hb : result P n i (.skip [] tail) with
            | none => rw [ha, hb] at h; cases h
            | some b =>
              rw [ha, hb] at h
              cases h
              obtain ⟨ca, ha, ea⟩ := ihs _ (by simp) _ ha
              obtain ⟨cb, hb, eb⟩ := ihi _ (by simp) _ hb
              refine ⟨.skip ca cb, by rw [ha, hb]; rfl, fun pl => ?_⟩
              rw [modelled_skip, ← ea, ← eb]
        | _ => exact ihs _ (by simp) _ h
    | term ts =>
      rw [expand]
      have ht := fun pl => result_term hR hP n hx ts pl
      cases hq : term R ts with
      | none => rw [ht [], hq] at h; cases h
      | some t =>
        cases t with
        | expr inner => rw [ht [], hq] at h; exact ihs _ (by simp) _ h
        | done c' =>
          refine ⟨c', rfl, fun pl => ?_⟩
          rw [ht pl, hq] at h
          cases h; rfl

end Chomp.MacroRules
