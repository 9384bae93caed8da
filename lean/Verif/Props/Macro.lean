import Verif.Lemmas.Macro
import Verif.Props.Choice
import Verif.Props.Monad

/-
C61, C62: `parse!` and `parser!` (src/macros.rs).
-/

namespace Chomp.Props

open Chomp.Macro

/-! ### C61 the grammar -/

/-- A block of the documented grammar expands to what the grammar says. The number of nested
invocations this takes is at most linear in the number of tokens. -/
theorem C61_complete {R : Fragments} (L : R.Lawful) {ts : List TT} {c : Code} (h : Derives R .block ts c)
    {n : Nat} (hn : 11 * size ts ≤ n) : expand tables R n (.block ts) = some c := by
  obtain ⟨m, hw, hm⟩ := expand_complete tables_windows L h
  have := length_le_size ts
  unfold Level.Within at hw
  exact expand_mono (by omega) hm

/-- What expands is a block of the documented grammar, or one followed by a `;`. -/
theorem C61_sound {R : Fragments} (L : R.Lawful) {ts : List TT} {c : Code} {n : Nat}
    (h : expand tables R n (.block ts) = some c) :
    Derives R .block ts c ∨ ∃ ts', ts = ts' ++ toks [.semi] ∧ Derives R .block ts' c :=
  (expand_sound tables_windows L n).2.2.2.2 ts c h

/-- The last `;`, which the documented grammar does not allow, is always accepted, and means nothing. -/
theorem C61_trailing_semicolon {R : Fragments} (L : R.Lawful) {ts : List TT} {c : Code}
    (h : Derives R .block ts c) : ∃ n, expand tables R n (.block (ts ++ toks [.semi])) = some c :=
  trailing tables_windows L h rfl

/-- The grammar is unambiguous. -/
theorem C61_unambiguous {R : Fragments} (L : R.Lawful) {l : Level} {ts : List TT} {c c' : Code}
    (h : Derives R l ts c) (h' : Derives R l ts c') : c = c' := by
  obtain ⟨n, _, hn⟩ := expand_complete tables_windows L h
  obtain ⟨m, _, hm⟩ := expand_complete tables_windows L h'
  have h1 := expand_mono (Nat.le_max_left n m) hn
  rw [expand_mono (Nat.le_max_right n m) hm] at h1
  cases h1
  rfl

/-- The whole macro: an expression for the input, `;`, and the block. -/
theorem C61_parse {R : Fragments} (L : R.Lawful) {input ts : List TT} {c : Code} (hi : R.IsExpr input)
    (h : Derives R .block ts c) {n : Nat} (hn : 11 * size ts ≤ n) :
    parse R n (input ++ toks [.semi] ++ ts) = some (input, c) := by
  unfold parse
  rw [List.append_assoc]
  have := L.expr_follow ts hi (.inr rfl)
  simp only [List.map_cons, List.map_nil, List.cons_append, List.nil_append]
  rw [this]
  dsimp only
  rw [C61_complete L h hn]
  rfl

/-! The unrolled rules. From here on, nothing is assumed about how Rust parses fragments. -/

/-- The unrolled rules give exactly what the simple rules in the comments give. -/
theorem C61_unrolled (R : Fragments) (ts : List TT) (c : Code) :
    (∃ n, expand tables R n (.block ts) = some c) ↔ ∃ n, expand simpleTables R n (.block ts) = some c := by
  constructor
  · rintro ⟨n, h⟩
    obtain ⟨m, hm, _⟩ := expand_windows tables_windows simple_windows n _ _ h trivial
    exact ⟨m, hm⟩
  · rintro ⟨n, h⟩
    obtain ⟨m, hm, _⟩ := expand_windows simple_windows tables_windows n _ _ h trivial
    exact ⟨m, hm⟩

/-- The unrolled rules never need more nested invocations. -/
theorem C61_unrolled_depth (R : Fragments) {ts : List TT} {c : Code} {n : Nat}
    (h : expand simpleTables R n (.block ts) = some c) : expand tables R n (.block ts) = some c := by
  obtain ⟨m, hm, hle⟩ := expand_windows simple_windows tables_windows n _ _ h trivial
  exact expand_mono (hle (by decide) (by decide) (by decide) (by decide)) hm

/-- The result does not depend on the limit on nested invocations, unless that is exceeded. -/
theorem C61_limit (R : Fragments) {k : Call} {c c' : Code} {n m : Nat}
    (h : expand tables R n k = some c) (h' : expand tables R m k = some c') : c = c' := by
  have h1 := expand_mono (Nat.le_max_left n m) h
  rw [expand_mono (Nat.le_max_right n m) h'] at h1
  cases h1
  rfl

/-- An expression with `>>` is split at the first one. -/
theorem C61_split_then (R : Fragments) {a b : List TT} (ha : Free [.shr] a) (c : Code) :
    (∃ n, expand tables R n (.expr [] (a ++ toks [.shr] ++ b)) = some c) ↔
      ∃ x y, c = .bind .wild x y ∧ (∃ n, expand tables R n (.alt [] a) = some x) ∧
        ∃ n, expand tables R n (.expr [] b) = some y := by
  have hf := first_of_free (by decide) ha b
  constructor
  · rintro ⟨n, h⟩
    rw [expr_some tables_windows] at h
    rcases h with ⟨h, _⟩ | ⟨a', b', h1, m, _, x, y, h2, h3, h4⟩
    · exact absurd hf h.not_first
    · obtain ⟨rfl, rfl⟩ := h1.unique hf
      exact ⟨x, y, h4, ⟨m, h2⟩, ⟨m, h3⟩⟩
  · rintro ⟨x, y, rfl, ⟨n, h1⟩, ⟨m, h2⟩⟩
    exact ⟨_, (expr_some tables_windows).mpr (.inr ⟨a, b, hf, max n m, rfl, x, y,
      expand_mono (Nat.le_max_left n m) h1, expand_mono (Nat.le_max_right n m) h2, rfl⟩)⟩

/-- An operand of `>>` with `<|>` is split at the first one. -/
theorem C61_split_or (R : Fragments) {a b : List TT} (ha : Free [.lt, .bar, .gt] a) (c : Code) :
    (∃ n, expand tables R n (.alt [] (a ++ toks [.lt, .bar, .gt] ++ b)) = some c) ↔
      ∃ x y, c = .or x y ∧ (∃ n, expand tables R n (.skip [] a) = some x) ∧
        ∃ n, expand tables R n (.alt [] b) = some y := by
  have hf := first_of_free (by decide) ha b
  constructor
  · rintro ⟨n, h⟩
    rw [alt_some tables_windows] at h
    rcases h with ⟨h, _⟩ | ⟨a', b', h1, m, _, x, y, h2, h3, h4⟩
    · exact absurd hf h.not_first
    · obtain ⟨rfl, rfl⟩ := h1.unique hf
      exact ⟨x, y, h4, ⟨m, h2⟩, ⟨m, h3⟩⟩
  · rintro ⟨x, y, rfl, ⟨n, h1⟩, ⟨m, h2⟩⟩
    exact ⟨_, (alt_some tables_windows).mpr (.inr ⟨a, b, hf, max n m, rfl, x, y,
      expand_mono (Nat.le_max_left n m) h1, expand_mono (Nat.le_max_right n m) h2, rfl⟩)⟩

/-- An operand of `<|>` with `<*` is split at the first one. -/
theorem C61_split_skip (R : Fragments) {a b : List TT} (ha : Free [.lt, .star] a) (c : Code) :
    (∃ n, expand tables R n (.skip [] (a ++ toks [.lt, .star] ++ b)) = some c) ↔
      ∃ x y, c = .skip x y ∧ (∃ n, expand tables R n (.term a) = some x) ∧
        ∃ n, expand tables R n (.skip [] b) = some y := by
  have hf := first_of_free (by decide) ha b
  constructor
  · rintro ⟨n, h⟩
    rw [skip_some tables_windows] at h
    rcases h with ⟨h, _⟩ | ⟨a', b', h1, m, _, x, y, h2, h3, h4⟩
    · exact absurd hf h.not_first
    · obtain ⟨rfl, rfl⟩ := h1.unique hf
      exact ⟨x, y, h4, ⟨m, h2⟩, ⟨m, h3⟩⟩
  · rintro ⟨x, y, rfl, ⟨n, h1⟩, ⟨m, h2⟩⟩
    exact ⟨_, (skip_some tables_windows).mpr (.inr ⟨a, b, hf, max n m, rfl, x, y,
      expand_mono (Nat.le_max_left n m) h1, expand_mono (Nat.le_max_right n m) h2, rfl⟩)⟩

/-- A statement ends at the first `;`. -/
theorem C61_split_statement (R : Fragments) {v : Var} {a b : List TT} (ha : Free [.semi] a) (hne : a ≠ [])
    (hb : b ≠ []) (c : Code) :
    (∃ n, expand tables R n (.statement v [] (a ++ toks [.semi] ++ b)) = some c) ↔
      ∃ x y, c = .bind v x y ∧ (∃ n, expand tables R n (.expr [] a) = some x) ∧
        ∃ n, expand tables R n (.block b) = some y := by
  have hf := first_of_free (by decide) ha b
  constructor
  · rintro ⟨n, h⟩
    rw [statement_some tables_windows] at h
    rcases h with ⟨h, _⟩ | ⟨a', b', h1, m, _, h⟩
    · exact absurd hf h.not_first
    · obtain ⟨rfl, rfl⟩ := h1.unique hf
      rw [bind_some] at h
      obtain ⟨k, _, _, h⟩ := h
      rcases h with ⟨h, _⟩ | ⟨_, x, y, h2, h3, h4⟩
      · exact absurd h hb
      · exact ⟨x, y, h4, ⟨k, h2⟩, ⟨k, h3⟩⟩
  · rintro ⟨x, y, rfl, ⟨n, h1⟩, ⟨m, h2⟩⟩
    exact ⟨_, (statement_some tables_windows).mpr (.inr ⟨a, b, hf, _, rfl, bind_action hne hb h1 h2⟩)⟩

/-- Without an operator, an expression is a term. -/
theorem C61_no_operator (R : Fragments) {ts : List TT} (h : Plain ts) (c : Code) :
    (∃ n, expand tables R n (.expr [] ts) = some c) ↔ ∃ n, expand tables R n (.term ts) = some c := by
  constructor
  · rintro ⟨n, hn⟩
    rw [expr_some tables_windows] at hn
    rcases hn with ⟨_, n, _, hn⟩ | ⟨a, b, hf, _⟩
    · rw [alt_some tables_windows] at hn
      rcases hn with ⟨_, n, _, hn⟩ | ⟨a, b, hf, _⟩
      · rw [skip_some tables_windows] at hn
        rcases hn with ⟨_, n, _, hn⟩ | ⟨a, b, hf, _⟩
        · exact ⟨n, hn⟩
        · exact absurd hf h.2.2.not_first
      · exact absurd hf h.2.1.not_first
    · exact absurd hf h.1.not_first
  · rintro ⟨n, hn⟩
    exact ⟨_, (expr_some tables_windows).mpr (.inl ⟨h.1, _, rfl, (alt_some tables_windows).mpr
      (.inl ⟨h.2.1, _, rfl, (skip_some tables_windows).mpr (.inl ⟨h.2.2, _, rfl, hn⟩)⟩)⟩)⟩

/-- `let` cannot be the last statement, with a `;` or without. -/
theorem C61_let_not_last (L : Fragments.Lawful R) {p a : List TT} (hp : R.IsPat p) (hne : a ≠ [])
    (ha : Free [.semi] a) (n : Nat) :
    expand tables R n (.block (.tok .kwLet :: (p ++ .tok .eq :: a))) = none ∧
      expand tables R n (.block (.tok .kwLet :: (p ++ .tok .eq :: (a ++ toks [.semi])))) = none := by
  have hbind : ∀ m x c, expand tables R m (.bind (.pat p) x []) ≠ some c := by
    intro m x c h
    rw [bind_some] at h
    obtain ⟨_, _, _, h⟩ := h
    rcases h with ⟨_, h, _⟩ | ⟨h, _⟩
    · cases h
    · exact h rfl
  constructor <;>
  · rw [Option.eq_none_iff_forall_ne_some]
    intro c hc
    rw [block_some] at hc
    obtain ⟨m, _, v, tail, h1, h2⟩ := hc
    rw [statement_pat L hp (by simp [hne])] at h1
    cases h1
    rw [statement_some tables_windows] at h2
    rcases h2 with ⟨_, m, _, h⟩ | ⟨a', b', hf, m, _, h⟩
    · exact absurd h (hbind m _ _)
    · first
      | exact absurd hf ha.not_first
      | have hf' := first_of_free (s := .semi) (sep := []) (by decide) ha []
        rw [List.append_nil] at hf'
        obtain ⟨rfl, rfl⟩ := hf.unique hf'
        exact absurd h (hbind m _ _)

/-- The last statement of a block does not begin with `let`, whatever comes before it and whatever
follows, with a `;` at the end or without. Here `pre` are the statements before the last one, each with its
`;`, and `a` is the rest of the last one. -/
theorem C61_last_statement (L : Fragments.Lawful R) {pre a : List TT}
    (hpre : pre = [] ∨ ∃ x, pre = x ++ toks [.semi]) (ha : Free [.semi] a) (n : Nat) :
    expand tables R n (.block (pre ++ .tok .kwLet :: a)) = none ∧
      expand tables R n (.block (pre ++ .tok .kwLet :: (a ++ toks [.semi]))) = none := by
  have hm := Free.not_mem.mp ha
  have key : ∀ {l : Level} {ts : List TT} {c : Code}, Derives R l ts c → l = .block →
      ∀ pre : List TT, (pre = [] ∨ ∃ x, pre = x ++ toks [.semi]) → ts ≠ pre ++ .tok .kwLet :: a := by
    have tail : ∀ (x b pre : List TT), (pre = [] ∨ ∃ x, pre = x ++ toks [.semi]) →
        (∀ pre : List TT, (pre = [] ∨ ∃ x, pre = x ++ toks [.semi]) → b ≠ pre ++ .tok .kwLet :: a) →
        x ++ toks [.semi] ++ b ≠ pre ++ .tok .kwLet :: a := by
      intro x b pre hpre ih he
      rcases List.append_eq_append_iff.mp he with ⟨y, h1, h2⟩ | ⟨y, h1, h2⟩
      · refine ih y ?_ h2
        rcases hpre with rfl | ⟨z, rfl⟩
        · simp at h1
        · rcases List.eq_nil_or_concat y with rfl | ⟨y', t, rfl⟩
          · exact .inl rfl
          · rw [List.concat_eq_append, ← List.append_assoc] at h1
            obtain ⟨_, ht⟩ := List.append_inj' h1 rfl
            exact .inr ⟨y', by rw [List.concat_eq_append, ht]⟩
      · rcases List.eq_nil_or_concat y with rfl | ⟨y', t, rfl⟩
        · exact ih [] (.inl rfl) (by simpa using h2.symm)
        · rw [List.concat_eq_append, ← List.append_assoc] at h1
          obtain ⟨_, ht⟩ := List.append_inj' h1 rfl
          rw [List.concat_eq_append, ← ht] at h2
          cases y' with
          | nil => simp [toks] at h2
          | cons u y' =>
            simp only [List.cons_append, List.cons.injEq] at h2
            exact hm (by rw [h2.2]; simp [toks])
    intro l ts c h
    induction h with
    | blockExpr h _ =>
      intro _ pre hpre he
      have hs := h.shape L
      rcases hpre with rfl | ⟨x, rfl⟩
      · exact hs.2.2 (by decide) (by rw [he]; rfl)
      · have : TT.tok .semi ∉ _ := hs.1
        exact this (by rw [he]; simp [toks])
    | action _ _ _ ih => exact fun _ pre hpre => tail _ _ pre hpre (ih rfl)
    | @letPat p a' b _ _ _ _ _ _ ih =>
      intro _ pre hpre he
      exact tail (.tok .kwLet :: (p ++ .tok .eq :: a')) b pre hpre (ih rfl) (by simpa using he)
    | @letTyped x ty a' b _ _ _ _ _ _ ih =>
      intro _ pre hpre he
      exact tail (.tok .kwLet :: .tok (.ident x) :: .tok .colon :: (ty ++ .tok .eq :: a')) b pre hpre (ih rfl)
        (by simpa using he)
    | _ => intro h; cases h
  have glue : ∀ {x b : List TT}, b ≠ [] → (x ++ b).getLast? = b.getLast? := by
    intro x b hb
    rw [List.getLast?_append, List.getLast?_eq_some_getLast hb]
    rfl
  have last : ∀ {l : Level} {ts : List TT} {c : Code}, Derives R l ts c → l = .block →
      ts.getLast? ≠ some (.tok .semi) := by
    intro l ts c h
    induction h with
    | blockExpr h _ =>
      intro _ he
      have : TT.tok .semi ∉ _ := (h.shape L).1
      exact this (List.mem_of_getLast? he)
    | action _ h _ ih =>
      have hb := (h.shape L).2.1
      have ih := ih rfl
      rw [glue hb]
      exact fun _ => ih
    | letPat _ _ h _ ih | letTyped _ _ h _ ih =>
      have hb := (h.shape L).2.1
      have ih := ih rfl
      intro _
      simp only [← List.cons_append, ← List.append_assoc]
      rw [glue hb]
      exact ih
    | _ => intro h; cases h
  constructor
  · rw [Option.eq_none_iff_forall_ne_some]
    intro c hc
    rcases C61_sound L hc with h | ⟨ts', he, h⟩
    · exact key h rfl pre hpre rfl
    · have he' := congrArg List.getLast? he
      rcases List.eq_nil_or_concat a with rfl | ⟨a', t, rfl⟩
      · simp [toks] at he'
      · rw [List.concat_eq_append] at he' hm
        rw [show pre ++ .tok .kwLet :: (a' ++ [t]) = (pre ++ .tok .kwLet :: a') ++ [t] by simp,
          glue (by simp), glue (by simp)] at he'
        cases he'
        exact hm (by simp)
  · rw [Option.eq_none_iff_forall_ne_some]
    intro c hc
    rcases C61_sound L hc with h | ⟨ts', he, h⟩
    · refine last h rfl ?_
      rw [← List.cons_append, ← List.append_assoc, glue (by simp)]
      rfl
    · refine key h rfl pre hpre ?_
      rw [← List.cons_append, ← List.append_assoc] at he
      exact (List.append_inj' he rfl).1.symm

/-- `ret @ Vec<Vec<u8>>, () : e` -/
def nested : List TT :=
  [.tok (.ident "ret"), .tok .at, .tok (.ident "Vec"), .tok .lt, .tok (.ident "Vec"), .tok .lt,
    .tok (.ident "u8"), .tok .shr, .tok .comma, .group .paren [], .tok .colon, .tok (.ident "e")]

/-- The documented grammar has `ret @ $ty, $ty: $expr`. With a `>>` in the type, as in
`ret @ Vec<Vec<u8>>, () : e`, the macro fails, however types and expressions are parsed: the `>>` is
taken for the operator. -/
theorem C61_shr_in_type_witness (R : Fragments) (n : Nat) : expand tables R n (.block nested) = none := by
  rw [Option.eq_none_iff_forall_ne_some]
  intro c hc
  rw [block_some] at hc
  obtain ⟨m, _, v, tail, h1, h2⟩ := hc
  rw [statement_wild (by simp [nested]) (by simp [nested])] at h1
  cases h1
  rw [statement_some tables_windows] at h2
  rcases h2 with ⟨_, m, _, h⟩ | ⟨a', b', hf, m, _, h⟩
  · rw [bind_some] at h
    obtain ⟨m, _, _, h⟩ := h
    rcases h with ⟨_, _, h⟩ | ⟨h, _⟩
    · obtain ⟨x, y, _, _, ⟨m, h⟩⟩ := (C61_split_then R (a := nested.take 7) (b := nested.drop 8)
        (Free.not_mem.mpr (by simp [nested])) c).mp ⟨m, h⟩
      obtain ⟨m, h⟩ := (C61_no_operator R (ts := nested.drop 8)
        (plain_of_toks (by simp [nested]) (by simp [nested])) y).mp ⟨m, h⟩
      rw [term_some] at h
      obtain ⟨m, _, h | ⟨_, h, _⟩⟩ := h
      · cases h
      · cases h
    · exact h rfl
  · have : TT.tok .semi ∈ nested := by rw [hf.1]; simp
    simp [nested] at this

/-! ### Examples

Expressions, types and patterns here are runs of tokens up to the next one which may follow them. -/

namespace MacroEx

def run (p : TT → Bool) (ts : List TT) : Option (List TT × List TT) :=
  if ts.takeWhile p = [] then none else some (ts.takeWhile p, ts.dropWhile p)

theorem run_eq {p : TT → Bool} {e : List TT} : run p e = some (e, []) ↔ e ≠ [] ∧ ∀ t ∈ e, p t = true := by
  unfold run
  constructor
  · intro h
    split at h
    · cases h
    · rename_i hn
      simp only [Option.some.injEq, Prod.mk.injEq] at h
      refine ⟨fun he => hn (by rw [he]; rfl), ?_⟩
      rw [← h.1]
      intro t ht
      have := List.all_takeWhile (p := p) (l := e)
      rw [List.all_eq_true] at this
      exact this t ht
  · rintro ⟨h1, h2⟩
    have h3 : e.takeWhile p = e := by
      have := List.takeWhile_append_of_pos (p := p) (l₁ := e) (l₂ := []) h2
      simpa using this
    have h4 : e.dropWhile p = [] := by
      have := List.dropWhile_append_of_pos (p := p) (l₁ := e) (l₂ := []) h2
      simpa using this
    rw [h3, h4, if_neg h1]

theorem run_part {p : TT → Bool} {ts e r : List TT} (h : run p ts = some (e, r)) :
    ts = e ++ r ∧ run p e = some (e, []) := by
  have h' := h
  unfold run at h
  split at h
  · cases h
  · rename_i hn
    simp only [Option.some.injEq, Prod.mk.injEq] at h
    obtain ⟨rfl, rfl⟩ := h
    refine ⟨by rw [List.takeWhile_append_dropWhile], run_eq.mpr ⟨hn, fun t ht => ?_⟩⟩
    have := List.all_takeWhile (p := p) (l := ts)
    rw [List.all_eq_true] at this
    exact this t ht

theorem run_follow {p : TT → Bool} {e r : List TT} {t : TT} (h : run p e = some (e, [])) (ht : p t = false) :
    run p (e ++ t :: r) = some (e, t :: r) := by
  obtain ⟨h1, h2⟩ := run_eq.mp h
  have h3 : (e ++ t :: r).takeWhile p = e := by
    rw [List.takeWhile_append_of_pos h2, List.takeWhile_cons_of_neg (by simp [ht]), List.append_nil]
  have h4 : (e ++ t :: r).dropWhile p = t :: r := by
    rw [List.dropWhile_append_of_pos h2, List.dropWhile_cons_of_neg (by simp [ht])]
  unfold run
  rw [h3, h4, if_neg h1]

def inExpr : TT → Bool
  | .tok t => t != .comma && t != .semi && t != .at && t != .arrow
  | .group _ _ => true

def inType : TT → Bool
  | .tok t => t != .comma && t != .colon && t != .eq && t != .semi
  | .group _ _ => true

def inPat : TT → Bool
  | .tok t => t != .eq && t != .colon
  | .group _ _ => true

def runs : Fragments := ⟨run inExpr, run inType, run inPat⟩

theorem runs_lawful : runs.Lawful where
  expr_part := run_part
  ty_part := run_part
  pat_part := run_part
  expr_follow := by
    rintro e t r he (rfl | rfl) <;> exact run_follow he rfl
  ty_follow := by
    rintro e t r he (rfl | rfl | rfl) <;> exact run_follow he rfl
  pat_follow := fun r he => run_follow he rfl
  pat_colon := fun x r => run_follow (p := inPat) (e := [.tok (.ident x)]) (t := .tok .colon) rfl rfl
  expr_semi := fun he hm => by
    have := (run_eq.mp he).2 _ hm
    simp [inExpr] at this
  ty_semi := fun he hm => by
    have := (run_eq.mp he).2 _ hm
    simp [inType] at this
  expr_ne := nofun
  expr_start := by
    rintro t r (rfl | rfl | rfl) <;> rfl

/-- `name(x)` -/
def call (f x : String) : List TT := [.tok (.ident f), .group .paren [.tok (.ident x)]]

/-- `let n: u32 = decimal(x) <* token(y); ret n * 2` -/
def block : List TT :=
  .tok .kwLet :: .tok (.ident "n") :: .tok .colon :: ([.tok (.ident "u32")] ++ .tok .eq ::
    ((call "decimal" "x" ++ toks [.lt, .star] ++ call "token" "y") ++ toks [.semi] ++
      (.tok (.ident "ret") :: [.tok (.ident "n"), .tok .star, .tok (.other "2")])))

def code : Code :=
  .bind (.typed "n" [.tok (.ident "u32")])
    (.skip (.named "decimal" [[.tok (.ident "x")]]) (.named "token" [[.tok (.ident "y")]]))
    (.ret none [.tok (.ident "n"), .tok .star, .tok (.other "2")])

theorem call_term (f x : String) (h1 : f ≠ "ret") (h2 : f ≠ "err") :
    Derives runs .term (call f x) (.named f [[.tok (.ident x)]]) :=
  .named h1 h2 (.last rfl)

/-- The hypotheses of C61 are met by a block with a typed variable and two of the operators. -/
theorem block_derives : Derives runs .block block code :=
  .letTyped rfl
    (.exprAlt (.altSkip (.skip (call_term _ _ (by decide) (by decide))
      (.skipTerm (call_term _ _ (by decide) (by decide))))))
    (.blockExpr (.exprAlt (.altSkip (.skipTerm (.ret rfl
      (plain_of_toks (by simp) (by simp)))))))

example : expand tables runs 200 (.block block) = some code :=
  C61_complete runs_lawful block_derives (by decide)

/-- The limit of Rust, 64, is far away. -/
example : expand tables runs 10 (.block block) = some code ∧ expand tables runs 9 (.block block) = none :=
  ⟨rfl, rfl⟩

example : ∃ n, expand tables runs n (.block (block ++ toks [.semi])) = some code :=
  C61_trailing_semicolon runs_lawful block_derives

/-- `a(x) >> b(x) <|> c(x) <* d(x) >> e(x)`: `<*` binds tighter than `<|>`, and that tighter than
`>>`. -/
example : expand tables runs 64 (.block (call "a" "x" ++ toks [.shr] ++ call "b" "x" ++
      toks [.lt, .bar, .gt] ++ call "c" "x" ++ toks [.lt, .star] ++ call "d" "x" ++ toks [.shr] ++
      call "e" "x")) =
    some (.bind .wild (.named "a" [[.tok (.ident "x")]])
      (.bind .wild (.or (.named "b" [[.tok (.ident "x")]])
        (.skip (.named "c" [[.tok (.ident "x")]]) (.named "d" [[.tok (.ident "x")]])))
        (.named "e" [[.tok (.ident "x")]]))) := rfl

/-- `let x = a(x); b(x); let y = a(x)` -/
example (n : Nat) : expand tables runs n (.block ((.tok .kwLet :: .tok (.ident "x") :: .tok .eq :: (call "a" "x" ++
    toks [.semi] ++ call "b" "x")) ++ toks [.semi] ++
    .tok .kwLet :: (.tok (.ident "y") :: .tok .eq :: call "a" "x"))) = none :=
  (C61_last_statement runs_lawful (.inr ⟨_, rfl⟩) (Free.not_mem.mpr (by simp [call])) n).1

/-- `Vec<Vec<u8>>` is a type here, so the term of the witness follows the grammar but for the operator
in it. -/
example : runs.IsTy (nested.drop 2 |>.take 6) := rfl

end MacroEx

end Chomp.Props
