import Verif.Rust.MacroExpand

/-
The text of `parse!` and `parser!` expands to what the model says (for C112).
-/

namespace Chomp.MacroRules

open Chomp.Macro

variable {P : Parse} {R : Fragments}

theorem invoke_parse (n : Nat) (ts : List Tree) : invoke P (n + 1) "parse" ts = (invoke P n PI ts).map fun o => [wrap o] := by
  rw [invoke]
  show ((firstArm P Text.parse ts).bind (expands (invoke P n))) = _
  rw [Text.parse, firstArm, run_all]
  simp only [List.nil_append, trees, Tpl.trees, many_same, List.append_nil, Option.bind_some, expands, Tree.expand]
  cases invoke P n PI ts <;> rfl

theorem invoke_internal (n : Nat) (ts : List Tree) :
    invoke P (n + 1) PI ts = (firstArm P Text.parseInternal ts).bind (expands (invoke P n)) := by
  rw [invoke]; rfl

theorem keyed_nil {K : String} {a : Arm} (h : Keyed K a) : run P (start a.pat []) 0 [] = .no := by
  obtain ⟨ps, h⟩ := h
  rw [h, run_tok_nil]

theorem skip_nil {K : String} {as : List Arm} (h : ∀ a ∈ as, Keyed K a) (bs : List Arm) :
    firstArm P (as ++ bs) [] = firstArm P bs [] :=
  firstArm_skip fun a ha => keyed_nil (h a ha)

theorem run_var_no (x : String) (k : Frag) (ps : List Pat) (env : Env) (t : Tree) (ts : List Tree) (h : begins k t = false) :
    run P (start (.var x k :: ps) env) 0 (t :: ts) = .no := by
  rw [run, start_var]
  simp [act, h]

/-- Without an expression for the input no rule applies. -/
theorem firstArm_none (hP : Extends R P) {ts : List TT} (ha : ∀ r, ts ≠ .tok .at :: r) (h : R.expr ts = none) :
    firstArm P Text.parseInternal (users ts) = none := by
  cases ts with
  | nil =>
    rw [users, arms, skip_nil bindArms_keyed, skip_nil termArms_keyed, skip_nil (munchArms_keyed _ _ _ _ _),
      skip_nil (munchArms_keyed _ _ _ _ _), skip_nil (munchArms_keyed _ _ _ _ _), skip_nil (munchArms_keyed _ _ _ _ _),
      blockArms_eq]
    simp only [firstArm, blockArm, run_var_nil]
  | cons t ts =>
    have hx : ∀ b, user t ≠ .tok .at b := by
      intro b e
      cases t with
      | tok t => rw [user] at e; cases e; exact ha ts rfl
      | group => rw [user] at e; cases e
    have hp : P .expr (user t :: users ts) = none := by
      have := hP.expr (t :: ts)
      rw [h] at this
      rwa [users] at this
    rw [users, arms, skip_arms' bindArms_keyed hx, skip_arms' termArms_keyed hx, skip_arms' (munchArms_keyed _ _ _ _ _) hx,
      skip_arms' (munchArms_keyed _ _ _ _ _) hx, skip_arms' (munchArms_keyed _ _ _ _ _) hx,
      skip_arms' (munchArms_keyed _ _ _ _ _) hx, blockArms_eq]
    cases hb : begins .expr (user t) with
    | false => simp only [firstArm, blockArm, run_var_no _ _ _ _ _ _ hb]
    | true =>
      rw [firstArm, blockArm, run_frag _ _ (.inl rfl) _ _ _ _ hb, hp]

theorem begins_users (hR : R.Lawful) (hP : Extends R P) {ts input r : List TT} (h : R.expr ts = some (input, r)) :
    Begins P (users ts) (.frag .expr (users input)) (users r) := by
  obtain ⟨rfl, hi⟩ := hR.expr_part h
  cases input with
  | nil => exact absurd hi hR.expr_ne
  | cons t input =>
    refine ⟨user t, users input, ?_, ?_, ?_, ?_⟩
    · rw [List.cons_append, users, users_append]
    · cases t with
      | group => rw [user]; rfl
      | tok t =>
        rw [user]
        cases t with
        | comma => rw [List.cons_append, hR.expr_start _ (.inr (.inl rfl))] at h; cases h
        | _ => rfl
    · intro b e
      cases t with
      | group => rw [user] at e; cases e
      | tok t =>
        rw [user] at e
        cases e
        rw [List.cons_append, hR.expr_start _ (.inl rfl)] at h; cases h
    · rw [hP.expr, h, users_length]
      rfl

/-- With nothing after the input, this is what there is. -/
theorem Begins.input {all : List Tree} {s : Tree} (h : Begins P all s []) : firstArm P Text.parseInternal all = some [s] := by
  rw [h.arms, blockArms_eq, h.arm, run_tok_nil]
  dsimp only
  rw [h.arm, run_tok_nil]
  dsimp only
  rw [h.arm, run_tok_nil]
  dsimp only
  rw [h.arm, run_end_nil]
  simp [trees, Tpl.trees, one_cons]

theorem Begins.input_semi {all : List Tree} {s : Tree} {b : Bool} (h : Begins P all s [.tok .semi b]) :
    firstArm P Text.parseInternal all = some [s] := by
  rw [h.arms, blockArms_eq, h.arm, run_tok, if_pos rfl, run_tok_nil]
  dsimp only
  rw [h.arm, run_tok, if_pos rfl, run_tok_nil]
  dsimp only
  rw [h.arm, run_tok, if_pos rfl, run_some, if_pos rfl]
  dsimp only
  rw [h.arm, run_end]
  dsimp only
  rw [h.arm, run_tok, if_pos rfl, run_end_nil]
  simp [trees, Tpl.trees, one_cons]

/-- The input has to be followed by `;`. -/
theorem Begins.other {all r : List Tree} {s t : Tree} (h : Begins P all s (t :: r)) (ht : ∀ b, t ≠ .tok .semi b) :
    firstArm P Text.parseInternal all = none := by
  rw [h.arms, blockArms_eq, h.arm, run_tok_no _ _ _ _ _ ht]
  dsimp only
  rw [h.arm, run_tok_no _ _ _ _ _ ht]
  dsimp only
  rw [h.arm, run_tok_no _ _ _ _ _ ht]
  dsimp only
  rw [h.arm, run_end]
  dsimp only
  rw [h.arm, run_tok_no _ _ _ _ _ ht]
  dsimp only
  rw [firstArm]

theorem expands_source (f : String → List Tree → Option (List Tree)) (src : Macro.Source) :
    expands f [source src] = some [source src] := by
  rw [expands, source_fixed, expands]; rfl

theorem wrap_source (src : Macro.Source) : wrap [source src] = source src := by
  cases src <;> rfl

/-- What follows the input. -/
theorem top (hR : R.Lawful) (hP : Extends R P) {ts input r : List TT} (h : R.expr ts = some (input, r)) (n : Nat) :
    (r = [] ∨ r = [.tok .semi]) ∧ (invoke P (n + 1) PI (users ts)).map wrap = some (source (.tokens input)) ∨
    (∃ block, r = .tok .semi :: block ∧ block ≠ [] ∧
      ((invoke P (n + 1) PI (users ts)).map wrap = (match statement R block with
        | none => none
        | some (v, tail) => result P n (source (.tokens input)) (.statement v [] tail)) ∨
      Stuck block ∧
        (invoke P (n + 1) PI (users ts)).map wrap = result P n (source (.tokens input)) (.statement .wild [] block))) ∨
    (r ≠ [] ∧ ∀ block, r ≠ .tok .semi :: block) ∧ (invoke P (n + 1) PI (users ts)).map wrap = none := by
  have hb := begins_users hR hP h
  rw [invoke_internal]
  cases r with
  | nil =>
    rw [users] at hb
    refine .inl ⟨.inl rfl, ?_⟩
    rw [hb.input, ← source, Option.bind_some, expands_source, Option.map_some, wrap_source]
  | cons t r =>
    rw [users] at hb
    by_cases ht : t = .tok .semi
    · subst ht
      rw [user] at hb
      by_cases hr : r = []
      · subst hr
        rw [users] at hb
        refine .inl ⟨.inr rfl, ?_⟩
        rw [hb.input_semi, ← source, Option.bind_some, expands_source, Option.map_some, wrap_source]
      · refine .inr (.inl ⟨r, rfl, hr, ?_⟩)
        rcases firstArm_block hR hP hb hr with h | ⟨hs, h⟩
        · refine .inl ?_
          rw [h]
          cases statement R r with
          | none => rfl
          | some vt => exact one_call _ _ _
        · refine .inr ⟨hs, ?_⟩
          rw [h]
          exact one_call _ _ _
    · refine .inr (.inr ⟨⟨by simp, fun block e => ht (by injection e)⟩, ?_⟩)
      rw [hb.other]
      · rfl
      · intro b e
        cases t with
        | group => rw [user] at e; cases e
        | tok t => rw [user] at e; cases e; exact ht rfl

theorem parse_forward (hR : R.Lawful) (hP : Extends R P) {n : Nat} {ts : List TT} {p : Parsed}
    (h : parseText R (fun _ => 1) n ts = some p) : invoke P (2 * n + 2) "parse" (users ts) = some [parsed p] := by
  rw [show 2 * n + 2 = 2 * n + 1 + 1 from rfl, invoke_parse]
  unfold parseText at h
  suffices (invoke P (2 * n + 1) PI (users ts)).map wrap = some (parsed p) by
    rw [Option.map_eq_some_iff] at this ⊢
    obtain ⟨o, ho, hw⟩ := this
    exact ⟨o, ho, by rw [hw]⟩
  cases he : R.expr ts with
  | none => rw [he] at h; cases h
  | some ir =>
    obtain ⟨input, r⟩ := ir
    rw [he] at h
    rcases top hR hP he (2 * n) with ⟨hr, e⟩ | ⟨block, rfl, hn, e⟩ | ⟨⟨hr, hr'⟩, _⟩
    · rw [e]
      rcases hr with rfl | rfl <;> cases h <;> rfl
    · cases block with
      | nil => exact absurd rfl hn
      | cons t block =>
      dsimp only at h
      cases n with
      | zero => rw [expand] at h; cases h
      | succ n =>
      rw [expand] at h
      cases hs : statement R (t :: block) with
      | none => rw [hs] at h; cases h
      | some vt =>
        rw [hs] at h
        dsimp only at h
        cases hx : expand tables R n (.statement vt.1 [] vt.2) with
        | none => rw [hx] at h; cases h
        | some c =>
          rw [hx] at h
          cases h
          rcases e with e | ⟨hst, _⟩
          · rw [e, hs]
            exact result_mono (by omega) (forward hR hP n _ _ _ c (isInput_source hP _) (by simp) hx [])
          · rw [stuck_statement hR hP hst] at hs; cases hs
    · exfalso
      cases r with
      | nil => exact hr rfl
      | cons t r =>
        split at h
        · rename_i hq; cases hq
        · rename_i hq; injection hq with hq; injection hq with _ hq; exact hr' _ hq
        · rename_i hq; injection hq with hq; injection hq with _ hq; exact hr' _ hq
        · cases h

theorem parse_backward (hR : R.Lawful) (hP : Extends R P) {n : Nat} {ts : List TT} (ha : ∀ r, ts ≠ .tok .at :: r)
    {out : List Tree} (h : invoke P n "parse" (users ts) = some out) :
    ∃ p, parseText R (fun _ => 1) n ts = some p ∧ out = [parsed p] := by
  cases n with
  | zero => rw [invoke] at h; cases h
  | succ n =>
  rw [invoke_parse] at h
  cases n with
  | zero => rw [invoke] at h; cases h
  | succ n =>
  unfold parseText
  cases he : R.expr ts with
  | none =>
    rw [invoke_internal, firstArm_none hP ha he] at h; cases h
  | some ir =>
    obtain ⟨input, r⟩ := ir
    have h' : ∃ u, (invoke P (n + 1) PI (users ts)).map wrap = some u ∧ out = [u] := by
      rw [Option.map_eq_some_iff] at h
      obtain ⟨o, ho, rfl⟩ := h
      exact ⟨wrap o, by rw [ho]; rfl, rfl⟩
    obtain ⟨u, hu, rfl⟩ := h'
    rcases top hR hP he n with ⟨hr, e⟩ | ⟨block, rfl, hn, e⟩ | ⟨_, e⟩
    · rw [e] at hu
      cases hu
      rcases hr with rfl | rfl <;> exact ⟨_, rfl, rfl⟩
    · cases block with
      | nil => exact absurd rfl hn
      | cons t block =>
      dsimp only
      rcases e with e | ⟨hst, e⟩
      · rw [e] at hu
        cases hs : statement R (t :: block) with
        | none => rw [hs] at hu; cases hu
        | some vt =>
          rw [hs] at hu
          obtain ⟨c, hc, hout⟩ := backward hR hP n _ _ _ u (isInput_source hP _) (by simp) hu
          have hx : expand tables R (n + 2) (.block (t :: block)) = some c := by
            rw [expand, hs]
            exact expand_mono (Nat.le_succ n) hc
          refine ⟨_, by rw [hx]; rfl, ?_⟩
          rw [hout []]; rfl
      · rw [e] at hu
        obtain ⟨c, hc, _⟩ := backward hR hP n _ _ _ u (isInput_source hP _) (by simp) hu
        rw [stuck_expand hst] at hc; cases hc
    · rw [e] at hu; cases hu

/-! ### `parser!` -/

theorem invoke_parser (n : Nat) (ts : List Tree) :
    invoke P (n + 1) "parser" ts = (invoke P n "parse" (i :: key .semi :: ts)).map fun o => [key .bar, i, key .bar, wrap o] := by
  rw [invoke]
  show ((firstArm P Text.parser ts).bind (expands (invoke P n))) = _
  rw [Text.parser, firstArm, run_all]
  simp only [List.nil_append, trees, Tpl.trees, many_same, List.append_nil, Option.bind_some, expands, Tree.expand,
    List.cons_append]
  cases invoke P n "parse" (i :: key .semi :: ts) <;> rfl

theorem parser_eq (n : Nat) (ts : List TT) :
    invoke P (n + 2) "parser" (users ts) = (result P n i (.block ts)).map fun t => [key .bar, i, key .bar, t] := by
  rw [invoke_parser, invoke_parse, result, args]
  cases invoke P n PI (i :: key .semi :: users ts) with
  | none => rfl
  | some o => simp [wrap_wrap]

theorem parser_empty (hP : Extends R P) (n : Nat) :
    invoke P (n + 3) "parser" [] = some [key .bar, i, key .bar, source (.var ⟨"i", 1⟩)] := by
  have := parser_eq (P := P) (n + 1) []
  rw [users] at this
  rw [this, result_succ, args, users,
    ((isInput_i hP).begins (show Ends [key .semi] from .inl rfl)).input_semi, Option.bind_some, expands_source,
    Option.map_some, wrap_source, Option.map_some]

end Chomp.MacroRules
