import Verif.Props.Macro
import Verif.Lemmas.Closures

/-
C62: the parsers which blocks stand for (src/macros.rs).

`Means R S l ts d`: the tokens `ts`, as an `l` of the grammar, stand for the parser `d env`, where `env`
are the variables in scope. Nothing is assumed about how Rust parses fragments.
-/

namespace Chomp.Props

open Chomp.Macro

variable {R : Fragments} {S : Sem σ I V E Env}

/-- Tokens stand for one parser only. -/
theorem C62_functional {l : Level} {ts : List TT} {d d' : Env → Parser σ I V E}
    (h : Means R S l ts d) (h' : Means R S l ts d') : d = d' := by
  obtain ⟨n, c, h1, h2⟩ := h
  obtain ⟨m, c', h3, h4⟩ := h'
  obtain rfl := C61_limit R h1 h3
  funext env
  rw [← h2, h4]

/-- Every block of the documented grammar stands for a parser. -/
theorem C62_total (L : R.Lawful) {l : Level} {ts : List TT} {c : Code} (h : Derives R l ts c) :
    ∃ d, Means R S l ts d := by
  obtain ⟨n, _, hn⟩ := expand_complete tables_windows L h
  exact ⟨fun env => c.run S env, n, c, hn, fun _ => rfl⟩

theorem run_bind (p : Parser σ I V E) (f : V → Parser σ I V E) (i : Input I) (w : σ) :
    Parser.bind id p f i w = onData (p i w) fun i v w => f v i w := by
  unfold Parser.bind onData
  rw [M.bind_apply]
  match p i w with
  | .ok (.data i' v, w') =>
    change (ParseResult.bind id (.data i' v) fun i t => f t i) w' = f v i' w'
    exact congrFun (C01_left_identity id i' v (fun i t => f t i)) w'
  | .ok (.error b e, w') => rfl
  | .ok (.incomplete n, w') => rfl
  | .panic => rfl
  | .ub => rfl
  | .div => rfl

/-- `ret e` succeeds with the value of `e`, without consuming anything. -/
theorem C62_ret {e : List TT} (hat : e.head? ≠ some (.tok .at)) (he : R.IsExpr e) :
    Means R S .term (.tok (.ident "ret") :: e) fun env i w =>
      match S.eval env e w with
      | .ok (v, w') => .ok (.data i v, w')
      | .panic => .panic
      | .ub => .ub
      | .div => .div := by
  refine ⟨1, .ret none e, term_some.mpr ⟨0, rfl, .inl ?_⟩, fun env => ?_⟩
  · unfold Fragments.IsExpr at he
    unfold term
    split <;> simp_all
  · funext i w
    show (S.eval env e >>= fun v => pure (i.ret v)) w = _
    rw [M.bind_apply]
    dsimp only
    cases S.eval env e w <;> rfl

/-- `err e` fails with the value of `e`, at the current position. -/
theorem C62_err {e : List TT} (hat : e.head? ≠ some (.tok .at)) (he : R.IsExpr e) :
    Means R S .term (.tok (.ident "err") :: e) fun env i w =>
      match S.evalErr env e w with
      | .ok (v, w') => .ok (.error i.buf v, w')
      | .panic => .panic
      | .ub => .ub
      | .div => .div := by
  refine ⟨1, .err none e, term_some.mpr ⟨0, rfl, .inl ?_⟩, fun env => ?_⟩
  · unfold Fragments.IsExpr at he
    unfold term
    split <;> simp_all
  · funext i w
    show (S.evalErr env e >>= fun v => pure (i.err v)) w = _
    rw [M.bind_apply]
    dsimp only
    cases S.evalErr env e w <;> rfl

/-- `x -> e` is the value of `e` with the input bound to `x`. -/
theorem C62_inline {x : String} (h1 : x ≠ "ret") (h2 : x ≠ "err") {e : List TT} (he : R.IsExpr e) :
    Means R S .term (.tok (.ident x) :: .tok .arrow :: e) fun env => S.inline env x e :=
  ⟨1, _, term_some.mpr ⟨0, rfl, .inl (term_inline h1 h2 he)⟩, fun _ => rfl⟩

theorem evalAll_ok {env : Env} {ps : List (List TT)} {w w' : σ} {vs : List V}
    (h : Evaluates S env ps w vs w') : evalAll S env ps w = .ok (vs, w') := by
  induction h with
  | nil => rfl
  | cons h _ ih => rw [evalAll, M.bind_ok h, M.bind_ok ih]; rfl

theorem evalAll_abrupt {env : Env} {x y : List (List TT)} {e : List TT} {w w1 : σ} {vs : List V}
    {a : Spec.Abrupt} (h : Evaluates S env x w vs w1) (he : S.eval env e w1 = a.res) :
    evalAll S env (x ++ e :: y) w = a.res := by
  induction h with
  | nil => rw [List.nil_append, evalAll, M.bind_apply, he, Closures.res_bind]
  | cons h _ ih => rw [List.cons_append, evalAll, M.bind_ok h, M.bind_apply, ih he, Closures.res_bind]

/-- `f(e1, .., en)` evaluates the parameters from left to right and calls `f` with the input and their
values. If evaluating a parameter panics, those after it are not evaluated and `f` is not called. Commas at
the end do not matter. -/
theorem C62_named (L : R.Lawful) {f : String} (h1 : f ≠ "ret") (h2 : f ≠ "err") {ts : List TT}
    {ps : List (List TT)} (hp : Params R ts ps) :
    ∃ d, Means R S .term [.tok (.ident f), .group .paren ts] d ∧
      (∀ env i w vs w', Evaluates S env ps w vs w' → d env i w = S.call env f vs i w') ∧
      (∀ env i w x e y vs w' (a : Spec.Abrupt), ps = x ++ e :: y → Evaluates S env x w vs w' →
        S.eval env e w' = a.res → d env i w = a.res) := by
  refine ⟨_, ⟨1, .named f ps, term_some.mpr ⟨0, rfl, .inl (term_named L h1 h2 hp)⟩, fun env => rfl⟩, ?_, ?_⟩
  · intro env i w vs w' h
    show (evalAll S env ps >>= fun vs => S.call env f vs i) w = _
    rw [M.bind_ok (evalAll_ok h)]
  · rintro env i w x e y vs w' a rfl h he
    show (evalAll S env (x ++ e :: y) >>= fun vs => S.call env f vs i) w = _
    rw [M.bind_apply, evalAll_abrupt h he, Closures.res_bind]

/-- Parentheses only group. -/
theorem C62_parens {ts : List TT} {d : Env → Parser σ I V E} :
    Means R S .term [.group .paren ts] d ↔ Means R S .expr ts d := by
  constructor
  · rintro ⟨n, c, h, hd⟩
    have h' := term_some.mp h
    obtain ⟨m, _, h' | ⟨inner, h1, h2⟩⟩ := h'
    · cases h'
    · cases h1
      exact ⟨m, c, h2, hd⟩
  · rintro ⟨n, c, h, hd⟩
    exact ⟨n + 1, c, term_some.mpr ⟨n, rfl, .inr ⟨ts, rfl, h⟩⟩, hd⟩

/-- A term is an operand of `<*`, one without `<*` of `<|>`, one without `<|>` of `>>`. -/
theorem C62_operand_skip {ts : List TT} (h : Free [.lt, .star] ts) {d : Env → Parser σ I V E} :
    Means R S .exprSkip ts d ↔ Means R S .term ts d := by
  constructor
  · rintro ⟨n, c, hc, hd⟩
    rcases (skip_some tables_windows).mp hc with ⟨_, m, _, h1⟩ | ⟨a, b, hf, _⟩
    · exact ⟨m, c, h1, hd⟩
    · exact absurd hf h.not_first
  · rintro ⟨n, c, hc, hd⟩
    exact ⟨_, c, (skip_some tables_windows).mpr (.inl ⟨h, n, rfl, hc⟩), hd⟩

theorem C62_operand_or {ts : List TT} (h : Free [.lt, .bar, .gt] ts) {d : Env → Parser σ I V E} :
    Means R S .exprAlt ts d ↔ Means R S .exprSkip ts d := by
  constructor
  · rintro ⟨n, c, hc, hd⟩
    rcases (alt_some tables_windows).mp hc with ⟨_, m, _, h1⟩ | ⟨a, b, hf, _⟩
    · exact ⟨m, c, h1, hd⟩
    · exact absurd hf h.not_first
  · rintro ⟨n, c, hc, hd⟩
    exact ⟨_, c, (alt_some tables_windows).mpr (.inl ⟨h, n, rfl, hc⟩), hd⟩

theorem C62_operand_then {ts : List TT} (h : Free [.shr] ts) {d : Env → Parser σ I V E} :
    Means R S .expr ts d ↔ Means R S .exprAlt ts d := by
  constructor
  · rintro ⟨n, c, hc, hd⟩
    rcases (expr_some tables_windows).mp hc with ⟨_, m, _, h1⟩ | ⟨a, b, hf, _⟩
    · exact ⟨m, c, h1, hd⟩
    · exact absurd hf h.not_first
  · rintro ⟨n, c, hc, hd⟩
    exact ⟨_, c, (expr_some tables_windows).mpr (.inl ⟨h, n, rfl, hc⟩), hd⟩

/-- `a >> b` runs `a`, and if that succeeds runs `b` on the rest; the value of `a` is dropped. -/
theorem C62_then {a b : List TT} (ha : Free [.shr] a) {p q : Env → Parser σ I V E}
    (hp : Means R S .exprAlt a p) (hq : Means R S .expr b q) :
    Means R S .expr (a ++ toks [.shr] ++ b) fun env i w =>
      onData (p env i w) fun i' _ w' => q env i' w' := by
  obtain ⟨n, x, h1, h2⟩ := hp
  obtain ⟨m, y, h3, h4⟩ := hq
  obtain ⟨k, hk⟩ := (C61_split_then R ha _).mpr ⟨x, y, rfl, ⟨n, h1⟩, ⟨m, h3⟩⟩
  refine ⟨k, _, hk, fun env => ?_⟩
  funext i w
  rw [Code.run, run_bind, h2]
  simp only [Sem.scope, h4]

/-- `a <* b` does the same, but its value is that of `a`. -/
theorem C62_skip {a b : List TT} (ha : Free [.lt, .star] a) {p q : Env → Parser σ I V E}
    (hp : Means R S .term a p) (hq : Means R S .exprSkip b q) :
    Means R S .exprSkip (a ++ toks [.lt, .star] ++ b) fun env i w =>
      onData (p env i w) fun i' v w' => onData (q env i' w') fun i'' _ w'' => .ok (.data i'' v, w'') := by
  obtain ⟨n, x, h1, h2⟩ := hp
  obtain ⟨m, y, h3, h4⟩ := hq
  obtain ⟨k, hk⟩ := (C61_split_skip R ha _).mpr ⟨x, y, rfl, ⟨n, h1⟩, ⟨m, h3⟩⟩
  refine ⟨k, _, hk, fun env => ?_⟩
  funext i w
  rw [Code.run, run_bind, h2]
  congr 1
  funext i' v w'
  rw [h4]
  show ((q env i') >>= fun r => r.map fun _ => pure v) w' = _
  rw [M.bind_apply]
  match q env i' w' with
  | .ok (.data _ _, _) => rfl
  | .ok (.error _ _, _) => rfl
  | .ok (.incomplete _, _) => rfl
  | .panic => rfl
  | .ub => rfl
  | .div => rfl

/-- `a <|> b` runs `b` on the same input if `a` fails, or if it asks for more input and there is none. -/
theorem C62_or {a b : List TT} (ha : Free [.lt, .bar, .gt] a) {p q : Env → Parser σ I V E}
    (hp : Means R S .exprSkip a p) (hq : Means R S .exprAlt b q) :
    Means R S .exprAlt (a ++ toks [.lt, .bar, .gt] ++ b) fun env i w =>
      match p env i w with
      | .ok (.error _ _, w') => q env i w'
      | .ok (.incomplete n, w') => if i.mode = .endOfInput then q env i w' else .ok (.incomplete n, w')
      | r => r := by
  obtain ⟨n, x, h1, h2⟩ := hp
  obtain ⟨m, y, h3, h4⟩ := hq
  obtain ⟨k, hk⟩ := (C61_split_or R ha _).mpr ⟨x, y, rfl, ⟨n, h1⟩, ⟨m, h3⟩⟩
  refine ⟨k, _, hk, fun env => ?_⟩
  funext i w
  rw [Code.run, h2, h4]
  dsimp only
  match hr : p env i w with
  | .ok (.data i' v, w') => exact C20_or_ok _ _ _ _ _ _ _ hr
  | .ok (.error b e, w') => exact C20_or_err _ _ _ _ _ _ _ hr
  | .ok (.incomplete n, w') => exact C20_or_incomplete _ _ i.mode i.buf n w w' hr
  | .panic => exact (C20_or_crash _ _ _ _).1 hr
  | .ub => exact (C20_or_crash _ _ _ _).2.1 hr
  | .div => exact (C20_or_crash _ _ _ _).2.2 hr

/-- `let v = a; rest` runs `a`, and if that succeeds runs the rest of the block with its value assigned
to `v`. -/
theorem C62_let (L : R.Lawful) {v a b : List TT} (hv : R.IsPat v) (ha : Free [.semi] a) (hne : a ≠ [])
    (hb : b ≠ []) {p q : Env → Parser σ I V E} (hp : Means R S .expr a p) (hq : Means R S .block b q) :
    Means R S .block (.tok .kwLet :: (v ++ .tok .eq :: (a ++ toks [.semi] ++ b))) fun env i w =>
      onData (p env i w) fun i' x w' => q (S.assign env (.pat v) x) i' w' := by
  obtain ⟨n, x, h1, h2⟩ := hp
  obtain ⟨m, y, h3, h4⟩ := hq
  obtain ⟨k, hk⟩ := (C61_split_statement R (v := .pat v) ha hne hb _).mpr ⟨x, y, rfl, ⟨n, h1⟩, ⟨m, h3⟩⟩
  refine ⟨k + 1, _, block_some.mpr ⟨k, rfl, _, _, statement_pat L hv (by simp [hne]), hk⟩, fun env => ?_⟩
  funext i w
  rw [Code.run, run_bind, h2]
  simp only [Sem.scope, h4]

/-- `let x: ty = a; rest` likewise. -/
theorem C62_let_typed (L : R.Lawful) {z : String} {ty a b : List TT} (hty : R.IsTy ty) (ha : Free [.semi] a)
    (hne : a ≠ []) (hb : b ≠ []) {p q : Env → Parser σ I V E} (hp : Means R S .expr a p)
    (hq : Means R S .block b q) :
    Means R S .block
      (.tok .kwLet :: .tok (.ident z) :: .tok .colon :: (ty ++ .tok .eq :: (a ++ toks [.semi] ++ b)))
      fun env i w => onData (p env i w) fun i' x w' => q (S.assign env (.typed z ty) x) i' w' := by
  obtain ⟨n, x, h1, h2⟩ := hp
  obtain ⟨m, y, h3, h4⟩ := hq
  obtain ⟨k, hk⟩ := (C61_split_statement R (v := .typed z ty) ha hne hb _).mpr
    ⟨x, y, rfl, ⟨n, h1⟩, ⟨m, h3⟩⟩
  refine ⟨k + 1, _, block_some.mpr ⟨k, rfl, _, _, statement_typed L hty (by simp [hne]), hk⟩, fun env => ?_⟩
  funext i w
  rw [Code.run, run_bind, h2]
  simp only [Sem.scope, h4]

/-- `a; rest` runs `a`, and if that succeeds runs the rest of the block; the value of `a` is dropped. -/
theorem C62_action {a b : List TT} (ha : Free [.semi] a) (hne : a ≠ [])
    (hlet : a.head? ≠ some (.tok .kwLet)) (hb : b ≠ []) {p q : Env → Parser σ I V E}
    (hp : Means R S .expr a p) (hq : Means R S .block b q) :
    Means R S .block (a ++ toks [.semi] ++ b) fun env i w =>
      onData (p env i w) fun i' _ w' => q env i' w' := by
  obtain ⟨n, x, h1, h2⟩ := hp
  obtain ⟨m, y, h3, h4⟩ := hq
  obtain ⟨k, hk⟩ := (C61_split_statement R (v := .wild) ha hne hb _).mpr ⟨x, y, rfl, ⟨n, h1⟩, ⟨m, h3⟩⟩
  refine ⟨k + 1, _, block_some.mpr ⟨k, rfl, _, _, statement_wild (by simp) ?_, hk⟩, fun env => ?_⟩
  · cases a with
    | nil => exact absurd rfl hne
    | cons t a => simpa using hlet
  · funext i w
    rw [Code.run, run_bind, h2]
    simp only [Sem.scope, h4]

/-- A block of one expression is that expression. -/
theorem C62_block {a : List TT} (ha : Free [.semi] a) (hne : a ≠ [])
    (hlet : a.head? ≠ some (.tok .kwLet)) {p : Env → Parser σ I V E} (hp : Means R S .expr a p) :
    Means R S .block a p := by
  obtain ⟨n, x, h1, h2⟩ := hp
  exact ⟨_, x, block_some.mpr ⟨_, rfl, _, _, statement_wild hne hlet, (statement_some tables_windows).mpr
    (.inl ⟨ha, _, rfl, bind_some.mpr ⟨n, rfl, hne, .inl ⟨rfl, rfl, h1⟩⟩⟩)⟩, h2⟩

/-! ### Re-bracketing -/

theorem onData_assoc (r : Res (ParseResult I V E × σ)) (f g : Input I → V → σ → Res (ParseResult I V E × σ)) :
    onData (onData r f) g = onData r fun i v w => onData (f i v w) g := by
  unfold onData
  match r with
  | .ok (.data _ _, _) => rfl
  | .ok (.error _ _, _) => rfl
  | .ok (.incomplete _, _) => rfl
  | .panic => rfl
  | .ub => rfl
  | .div => rfl

theorem group_free (sep : List Tok) (hs : sep ≠ []) (ts : List TT) : Free sep [.group .paren ts] := by
  intro x y h
  cases sep with
  | nil => exact hs rfl
  | cons s sep =>
    have : TT.tok s ∈ [.group .paren ts] := by rw [h]; simp
    simp at this

theorem group_exprSkip {ts : List TT} {d : Env → Parser σ I V E} (h : Means R S .expr ts d) :
    Means R S .exprSkip [.group .paren ts] d :=
  (C62_operand_skip (group_free _ (by decide) ts)).mpr (C62_parens.mpr h)

theorem group_exprAlt {ts : List TT} {d : Env → Parser σ I V E} (h : Means R S .expr ts d) :
    Means R S .exprAlt [.group .paren ts] d :=
  (C62_operand_or (group_free _ (by decide) ts)).mpr (group_exprSkip h)

/-- `(a >> b) >> c` is `a >> b >> c`. -/
theorem C62_then_assoc {a b c : List TT} (ha : Free [.shr] a) (hb : Free [.shr] b)
    {p q r : Env → Parser σ I V E} (hp : Means R S .exprAlt a p) (hq : Means R S .exprAlt b q)
    (hr : Means R S .expr c r) :
    ∃ d, Means R S .expr ([.group .paren (a ++ toks [.shr] ++ b)] ++ toks [.shr] ++ c) d ∧
      Means R S .expr (a ++ toks [.shr] ++ (b ++ toks [.shr] ++ c)) d := by
  refine ⟨_, C62_then (group_free _ (by decide) _)
    (group_exprAlt (C62_then ha hp ((C62_operand_then hb).mpr hq))) hr, ?_⟩
  have := C62_then ha hp (C62_then hb hq hr)
  simpa only [onData_assoc] using this

/-- `(a <* b) <* c` is `a <* b <* c`. -/
theorem C62_skip_assoc {a b c : List TT} (ha : Plain a) (hb : Plain b)
    {p q r : Env → Parser σ I V E} (hp : Means R S .term a p) (hq : Means R S .term b q)
    (hr : Means R S .exprSkip c r) :
    ∃ d, Means R S .exprSkip ([.group .paren (a ++ toks [.lt, .star] ++ b)] ++ toks [.lt, .star] ++ c) d ∧
      Means R S .exprSkip (a ++ toks [.lt, .star] ++ (b ++ toks [.lt, .star] ++ c)) d := by
  have e : a ++ toks [.lt, .star] ++ b = (a ++ [.tok .lt]) ++ .tok .star :: b := by simp
  have hor : Free [.lt, .bar, .gt] (a ++ toks [.lt, .star] ++ b) := by
    rw [e]
    exact Free.append (Free.snoc (by decide) ha.2.1 (by decide)) hb.2.1 (by decide)
  have hshr : Free [.shr] (a ++ toks [.lt, .star] ++ b) := by
    have h1 := Free.not_mem.mp ha.1
    have h2 := Free.not_mem.mp hb.1
    rw [Free.not_mem]
    simp_all
  have h1 := C62_skip ha.2.2 hp ((C62_operand_skip hb.2.2).mpr hq)
  have h2 := (C62_operand_then hshr).mpr ((C62_operand_or hor).mpr h1)
  refine ⟨_, C62_skip (group_free _ (by decide) _) (C62_parens.mpr h2) hr, ?_⟩
  have := C62_skip ha.2.2 hp (C62_skip hb.2.2 hq hr)
  simp only [onData_assoc] at this ⊢
  exact this

/-- `(a <|> b) <|> c` is `a <|> b <|> c`. -/
theorem C62_or_assoc {a b c : List TT} (ha : Free [.lt, .bar, .gt] a) (hb : Free [.lt, .bar, .gt] b)
    (ha' : Free [.shr] a) (hb' : Free [.shr] b) {p q r : Env → Parser σ I V E}
    (hp : Means R S .exprSkip a p) (hq : Means R S .exprSkip b q) (hr : Means R S .exprAlt c r) :
    ∃ d, Means R S .exprAlt
        ([.group .paren (a ++ toks [.lt, .bar, .gt] ++ b)] ++ toks [.lt, .bar, .gt] ++ c) d ∧
      Means R S .exprAlt (a ++ toks [.lt, .bar, .gt] ++ (b ++ toks [.lt, .bar, .gt] ++ c)) d := by
  have hshr : Free [.shr] (a ++ toks [.lt, .bar, .gt] ++ b) := by
    have h1 := Free.not_mem.mp ha'
    have h2 := Free.not_mem.mp hb'
    rw [Free.not_mem]
    simp_all
  have h1 := group_exprSkip ((C62_operand_then hshr).mpr (C62_or ha hp ((C62_operand_or hb).mpr hq)))
  refine ⟨_, C62_or (group_free _ (by decide) _) h1 hr, ?_⟩
  have h2 := C62_or ha hp (C62_or hb hq hr)
  refine cast (congrArg _ ?_) h2
  funext env i w
  cases hp : p env i w with
  | ok x =>
    obtain ⟨x, w'⟩ := x
    cases x with
    | data i' v => rfl
    | error b e => rfl
    | incomplete n =>
      dsimp only
      split
      · rfl
      · simp_all
  | panic => rfl
  | ub => rfl
  | div => rfl

/-- `a; b` and `a >> b` are the same for an expression `b`. -/
theorem C62_action_is_then {a b : List TT} (ha : Free [.shr] a) (hsa : Free [.semi] a)
    (hsb : Free [.semi] b) (hne : a ≠ []) (hla : a.head? ≠ some (.tok .kwLet)) (hb : b ≠ [])
    (hlb : b.head? ≠ some (.tok .kwLet)) {p q : Env → Parser σ I V E} (hp : Means R S .exprAlt a p)
    (hq : Means R S .expr b q) :
    ∃ d, Means R S .block (a ++ toks [.semi] ++ b) d ∧ Means R S .block (a ++ toks [.shr] ++ b) d := by
  refine ⟨_, C62_action hsa hne hla hb ((C62_operand_then ha).mpr hp) (C62_block hsb hb hlb hq),
    C62_block ?_ (by simp) ?_ (C62_then ha hp hq)⟩
  · have h1 := Free.not_mem.mp hsa
    have h2 := Free.not_mem.mp hsb
    rw [Free.not_mem]
    simp_all
  · cases a with
    | nil => exact absurd rfl hne
    | cons t a => simpa using hla

/-! ### Examples -/

namespace MacroEx

/-- Variables are numbers; `decimal` takes any one token, `token` the one given. -/
def sem : Sem Nat Nat Nat (Error Nat) (String → Nat) where
  eval env
    | [.tok (.ident x)] => do modify (· + 1); pure (env x)
    | [.tok (.ident x), .tok .star, .tok (.other "2")] => pure (env x * 2)
    | _ => M.panic
  evalErr _ _ := M.panic
  inline _ _ _ := fun _ => M.panic
  call _ f vs :=
    match f, vs with
    | "decimal", [_] => Parsers.any
    | "token", [x] => Parsers.token true x
    | _, _ => fun _ => M.panic
  assign env v x :=
    match v with
    | .typed y _ => fun z => if z = y then x else env z
    | _ => env

def vars : String → Nat := fun x => if x = "y" then 46 else 0

/-- What `let n: u32 = decimal(x) <* token(y); ret n * 2` does. The state counts the variables read as
parameters. -/
example (d : (String → Nat) → Parser Nat Nat Nat (Error Nat)) (h : Means runs sem .block block d) :
    d vars ⟨.default, [21, 46, 9]⟩ 0 = .ok (.data ⟨.default, [9]⟩ 42, 2) ∧
    d vars ⟨.default, [21]⟩ 0 = .ok (.incomplete 1, 2) ∧
    d vars ⟨.default, [21, 47]⟩ 0 = .ok (.error [47] (.expected 46), 2) := by
  obtain ⟨n, c, h1, h2⟩ := h
  obtain rfl := C61_limit runs h1 (show expand tables runs 10 (.block block) = some code from rfl)
  rw [← h2]
  exact ⟨rfl, rfl, rfl⟩

/-- Parameters are read in order, and `y * 3`, whose evaluation panics, keeps `x` from being read. -/
example : ∃ d, Means runs sem .term [.tok (.ident "f"), .group .paren
      [.tok (.ident "x"), .tok .comma, .tok (.ident "y"), .tok .star, .tok (.other "3"), .tok .comma,
        .tok (.ident "x")]] d ∧ ∀ i, d vars i 0 = .panic := by
  obtain ⟨d, h, _, hp⟩ := C62_named (S := sem) runs_lawful (f := "f") (by decide) (by decide)
    (.cons (e := [.tok (.ident "x")]) rfl
      (.cons (e := [.tok (.ident "y"), .tok .star, .tok (.other "3")]) rfl
        (.last (e := [.tok (.ident "x")]) rfl)))
  exact ⟨d, h, fun i => hp vars i 0 [[.tok (.ident "x")]] _ _ _ 1 .panic rfl (.cons rfl .nil) rfl⟩

/-- The premises of the theorems on `>>`, `<*` and `;` are met. -/
example : ∃ d, Means runs sem .expr ([.group .paren (call "decimal" "x" ++ toks [.shr] ++ call "token" "y")] ++
      toks [.shr] ++ call "decimal" "x") d ∧
    Means runs sem .expr (call "decimal" "x" ++ toks [.shr] ++ (call "token" "y" ++ toks [.shr] ++
      call "decimal" "x")) d := by
  have plain : ∀ f x, Plain (call f x) := fun f x => plain_of_toks (by simp [call]) (by simp [call])
  have term : ∀ f x, f ≠ "ret" → f ≠ "err" → ∃ d, Means runs sem .exprAlt (call f x) d := by
    intro f x h1 h2
    obtain ⟨d, hd, _⟩ := C62_named (S := sem) runs_lawful h1 h2 (.last (e := [.tok (.ident x)]) rfl)
    exact ⟨d, (C62_operand_or (plain f x).2.1).mpr ((C62_operand_skip (plain f x).2.2).mpr hd)⟩
  obtain ⟨p, hp⟩ := term "decimal" "x" (by decide) (by decide)
  obtain ⟨q, hq⟩ := term "token" "y" (by decide) (by decide)
  exact C62_then_assoc (plain _ _).1 (plain _ _).1 hp hq ((C62_operand_then (plain _ _).1).mpr hp)

end MacroEx

end Chomp.Props
