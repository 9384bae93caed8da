import Verif.Spec.Macro

namespace Chomp.Macro

/-! ### The rules, as a search for the first separator -/

/-- The rules with `k`, `k + 1`, ..., `k + m - 1` tokens before the end or the separator, and the one
which goes on after `k + m` tokens. -/
def window (k : Nat) : Nat → List Rule
  | 0 => [⟨k, .more⟩]
  | m + 1 => ⟨k, .stop⟩ :: ⟨k, .sep⟩ :: window (k + 1) m

theorem tables_expr : tables.expr = window 0 8 := rfl
theorem tables_alt : tables.alt = window 0 8 := rfl
theorem tables_skip : tables.skip = window 0 5 := rfl
theorem tables_statement : tables.statement = window 0 11 := rfl
theorem simple_expr : simpleTables.expr = window 0 1 := rfl
theorem simple_alt : simpleTables.alt = window 0 1 := rfl
theorem simple_skip : simpleTables.skip = window 0 1 := rfl
theorem simple_statement : simpleTables.statement = window 0 1 := rfl

/-- The first separator in `ts` is the one after `a`, and `b` follows. -/
def First (sep : List Tok) (ts a b : List TT) : Prop :=
  ts = a ++ toks sep ++ b ∧ ∀ x y, ts = x ++ toks sep ++ y → a.length ≤ x.length

theorem literal_eq {sep : List Tok} {ts r : List TT} : literal sep ts = some r ↔ ts = toks sep ++ r := by
  induction sep generalizing ts with
  | nil => simp [literal]
  | cons s sep ih =>
    cases ts with
    | nil => simp [literal]
    | cons t ts =>
      cases t with
      | group d l => simp [literal]
      | tok t =>
        unfold literal
        split
        · rename_i h
          rw [ih]
          simp [h]
        · rename_i h
          simp [Ne.symm h]

/-- The rule for a separator after `k` tokens. -/
theorem apply_sep {sep : List Tok} {ts : List TT} {k : Nat} {f : Found}
    (h : Rule.apply sep ⟨k, .sep⟩ ts = some f) :
    ∃ a b, ts = a ++ toks sep ++ b ∧ a.length = k ∧ f = .sep a b := by
  unfold Rule.apply at h
  split at h
  · rename_i hk
    dsimp only at h hk
    rw [Option.map_eq_some_iff] at h
    obtain ⟨b, h1, h2⟩ := h
    rw [literal_eq] at h1
    refine ⟨ts.take k, b, ?_, ?_, h2.symm⟩
    · rw [List.append_assoc, ← h1, List.take_append_drop]
    · rw [List.length_take]; omega
  · cases h

theorem apply_sep_eq {sep : List Tok} (a b : List TT) :
    Rule.apply sep ⟨a.length, .sep⟩ (a ++ toks sep ++ b) = some (.sep a b) := by
  unfold Rule.apply
  rw [if_pos (by simp)]
  have e : (a ++ toks sep ++ b).drop a.length = toks sep ++ b := by
    rw [List.append_assoc, List.drop_left]
  dsimp only
  rw [e, literal_eq.mpr rfl, List.append_assoc, List.take_left]
  rfl

theorem apply_stop {sep : List Tok} {ts : List TT} {k : Nat} (h : ts.length ≠ k) :
    Rule.apply sep ⟨k, .stop⟩ ts = none := by
  unfold Rule.apply
  split
  · rename_i hk
    dsimp only at hk ⊢
    rw [if_neg]
    rw [List.drop_eq_nil_iff]
    omega
  · rfl

theorem apply_stop_eq {sep : List Tok} (ts : List TT) :
    Rule.apply sep ⟨ts.length, .stop⟩ ts = some (.stop ts) := by
  unfold Rule.apply
  simp

theorem apply_more_eq {sep : List Tok} {ts : List TT} {k : Nat} (h : k ≤ ts.length) :
    Rule.apply sep ⟨k, .more⟩ ts = some (.more (ts.take k) (ts.drop k)) := by
  unfold Rule.apply
  rw [if_pos h]

theorem apply_sep_none {sep : List Tok} {ts : List TT} {k : Nat}
    (h : ∀ x y, ts = x ++ toks sep ++ y → x.length ≠ k) : Rule.apply sep ⟨k, .sep⟩ ts = none := by
  match hf : Rule.apply sep ⟨k, .sep⟩ ts with
  | none => rfl
  | some f =>
    obtain ⟨a, b, h1, h2, _⟩ := apply_sep hf
    exact absurd h2 (h a b h1)

theorem find_sep {sep : List Tok} (hs : sep ≠ []) {ts a b : List TT} (h : First sep ts a b) :
    ∀ m k, k ≤ a.length → a.length < k + m → firstRule sep (window k m) ts = some (.sep a b) := by
  have hl : a.length < ts.length := by
    have : 0 < sep.length := List.length_pos_iff.mpr hs
    rw [h.1]
    simp
    omega
  intro m
  induction m with
  | zero => intro k h1 h2; omega
  | succ m ih =>
    intro k h1 h2
    unfold window firstRule
    rw [List.findSome?_cons, apply_stop (by omega)]
    dsimp only
    rw [List.findSome?_cons]
    by_cases hk : k = a.length
    · subst hk
      conv => lhs; rw [h.1]
      rw [apply_sep_eq]
    · rw [apply_sep_none (fun x y hx => by have := h.2 x y hx; omega)]
      exact ih (k + 1) (by omega) (by omega)

theorem find_stop {sep : List Tok} {ts : List TT} :
    ∀ m k, (∀ x y, ts = x ++ toks sep ++ y → k + m ≤ x.length) → k ≤ ts.length → ts.length < k + m →
      firstRule sep (window k m) ts = some (.stop ts) := by
  intro m
  induction m with
  | zero => intro k _ h1 h2; omega
  | succ m ih =>
    intro k h h1 h2
    unfold window firstRule
    rw [List.findSome?_cons]
    by_cases hk : ts.length = k
    · subst hk
      rw [apply_stop_eq]
    · rw [apply_stop hk]
      dsimp only
      rw [List.findSome?_cons, apply_sep_none (fun x y hx => by have := h x y hx; omega)]
      exact ih (k + 1) (fun x y hx => by have := h x y hx; omega) (by omega) (by omega)

theorem find_more {sep : List Tok} {ts : List TT} :
    ∀ m k, (∀ x y, ts = x ++ toks sep ++ y → k + m ≤ x.length) → k + m ≤ ts.length →
      firstRule sep (window k m) ts = some (.more (ts.take (k + m)) (ts.drop (k + m))) := by
  intro m
  induction m with
  | zero =>
    intro k _ h1
    unfold window firstRule
    rw [List.findSome?_cons, apply_more_eq (k := k) h1]
    rfl
  | succ m ih =>
    intro k h h1
    unfold window firstRule
    rw [List.findSome?_cons, apply_stop (by omega)]
    dsimp only
    rw [List.findSome?_cons, apply_sep_none (fun x y hx => by have := h x y hx; omega)]
    have := ih (k + 1) (fun x y hx => by have := h x y hx; omega) (by omega)
    rw [show k + 1 + m = k + (m + 1) by omega] at this
    exact this

/-- A separator further on, after the first `w` tokens. -/
theorem First.drop {sep : List Tok} {ts a b : List TT} {w : Nat} (h : First sep ts a b)
    (hw : w ≤ a.length) : First sep (ts.drop w) (a.drop w) b := by
  obtain ⟨h1, h2⟩ := h
  refine ⟨?_, fun x y hx => ?_⟩
  · rw [h1, List.append_assoc, List.drop_append_of_le_length hw, List.append_assoc]
  · have hl : w ≤ ts.length := by rw [h1]; simp; omega
    have := h2 (ts.take w ++ x) y (by
      rw [List.append_assoc, List.append_assoc, ← List.append_assoc x, ← hx, List.take_append_drop])
    rw [List.length_append, List.length_take] at this
    rw [List.length_drop]
    omega

theorem Free.drop {sep : List Tok} {ts : List TT} {w : Nat} (h : Free sep ts) : Free sep (ts.drop w) := by
  intro x y hx
  refine h (ts.take w ++ x) y ?_
  rw [List.append_assoc, List.append_assoc, ← List.append_assoc x, ← hx, List.take_append_drop]

theorem Free.left {sep : List Tok} {a b : List TT} (h : Free sep (a ++ b)) : Free sep a := by
  intro x y hx
  exact h x (y ++ b) (by rw [hx, List.append_assoc])

theorem Free.right {sep : List Tok} {a b : List TT} (h : Free sep (a ++ b)) : Free sep b := by
  intro x y hx
  exact h (a ++ x) y (by rw [hx]; simp)

theorem First.free {sep : List Tok} (hs : sep ≠ []) {ts a b : List TT} (h : First sep ts a b) :
    Free sep a := by
  intro x y hx
  have := h.2 x (y ++ toks sep ++ b) (by rw [h.1, hx]; simp)
  have h0 : 0 < sep.length := List.length_pos_iff.mpr hs
  have e := congrArg List.length hx
  simp at e
  omega

/-- There is no separator, or a first one. -/
theorem free_or_first (sep : List Tok) (ts : List TT) : Free sep ts ∨ ∃ a b, First sep ts a b := by
  by_cases h : ∃ a b, ts = a ++ toks sep ++ b
  · right
    obtain ⟨a, b, h⟩ := h
    have main : ∀ m (a b : List TT), a.length = m → ts = a ++ toks sep ++ b →
        ∃ a b, First sep ts a b := by
      intro m
      induction m using Nat.strongRecOn with
      | _ m ih =>
        intro a b hm hab
        by_cases hx : ∃ x y, ts = x ++ toks sep ++ y ∧ x.length < a.length
        · obtain ⟨x, y, h1, h2⟩ := hx
          exact ih x.length (by omega) x y rfl h1
        · refine ⟨a, b, hab, fun x y hxy => ?_⟩
          apply Classical.byContradiction
          intro hlt
          exact hx ⟨x, y, hxy, by omega⟩
    exact main _ a b rfl h
  · left
    intro x y hx
    exact h ⟨x, y, hx⟩

/-- A recursive rule which eats tokens until the separator or the end. -/
structure Scan (sep : List Tok) (w : Nat) (f : Nat → List TT → List TT → Option Code)
    (g : Nat → List TT → Option Code) (h : Nat → List TT → List TT → Option Code) : Prop where
  zero : ∀ l ts, f 0 l ts = none
  succ : ∀ n l ts, f (n + 1) l ts =
    match firstRule sep (window 0 w) ts with
    | none => none
    | some (.stop x) => g n (l ++ x)
    | some (.sep x tail) => h n (l ++ x) tail
    | some (.more x tail) => f n (l ++ x) tail

namespace Scan

variable {sep : List Tok} {w : Nat} {f : Nat → List TT → List TT → Option Code}
  {g : Nat → List TT → Option Code} {h : Nat → List TT → List TT → Option Code}

theorem steps (hw : 0 < w) (k : Nat) (hk : w ≤ k) : k / w = (k - w) / w + 1 := by
  rw [Nat.div_eq, if_pos ⟨hw, hk⟩]

/-- Without a separator, it takes one invocation for every `w` tokens. -/
theorem free (S : Scan sep w f g h) (hw : 0 < w) {ts : List TT} (hf : Free sep ts) (l : List TT) (n : Nat) :
    f (n + ts.length / w + 1) l ts = g n (l ++ ts) ∧ ∀ m, m ≤ ts.length / w → f m l ts = none := by
  generalize hk : ts.length = k
  induction k using Nat.strongRecOn generalizing ts l with
  | _ k ih =>
    by_cases hlt : k < w
    · rw [Nat.div_eq_of_lt hlt]
      refine ⟨?_, fun m hm => ?_⟩
      · rw [S.succ, find_stop w 0 (fun x y hx => absurd hx (hf x y)) (by omega) (by omega)]
      · rw [show m = 0 by omega]; exact S.zero _ _
    · rw [steps hw k (by omega)]
      obtain ⟨h1, h2⟩ := ih (k - w) (by omega) hf.drop (l ++ ts.take w) (by rw [List.length_drop]; omega)
        (ts := ts.drop w)
      refine ⟨?_, fun m hm => ?_⟩
      · rw [S.succ, find_more w 0 (fun x y hx => absurd hx (hf x y)) (by omega)]
        dsimp only
        rw [Nat.zero_add, show n + ((k - w) / w + 1) = n + (k - w) / w + 1 by omega, h1,
          List.append_assoc, List.take_append_drop]
      · cases m with
        | zero => exact S.zero _ _
        | succ m =>
          rw [S.succ, find_more w 0 (fun x y hx => absurd hx (hf x y)) (by omega)]
          dsimp only
          rw [Nat.zero_add]
          exact h2 m (by omega)

/-- With a separator, for every `w` tokens before it. -/
theorem first (S : Scan sep w f g h) (hw : 0 < w) (hs : sep ≠ []) {ts a b : List TT}
    (hf : First sep ts a b) (l : List TT) (n : Nat) :
    f (n + a.length / w + 1) l ts = h n (l ++ a) b ∧ ∀ m, m ≤ a.length / w → f m l ts = none := by
  generalize hk : a.length = k
  induction k using Nat.strongRecOn generalizing ts a l with
  | _ k ih =>
    by_cases hlt : k < w
    · rw [Nat.div_eq_of_lt hlt]
      refine ⟨?_, fun m hm => ?_⟩
      · rw [S.succ, find_sep hs hf w 0 (by omega) (by omega)]
      · rw [show m = 0 by omega]; exact S.zero _ _
    · have hlen : a.length ≤ ts.length := by rw [hf.1]; simp
      have hmore : ∀ x y, ts = x ++ toks sep ++ y → 0 + w ≤ x.length := fun x y hx => by
        have := hf.2 x y hx; omega
      rw [steps hw k (by omega)]
      obtain ⟨h1, h2⟩ := ih (k - w) (by omega) (hf.drop (by omega)) (l ++ ts.take w)
        (by rw [List.length_drop]; omega) (ts := ts.drop w) (a := a.drop w)
      have e : ts.take w ++ a.drop w = a := by
        rw [hf.1, List.append_assoc, List.take_append_of_le_length (by omega), List.take_append_drop]
      refine ⟨?_, fun m hm => ?_⟩
      · rw [S.succ, find_more w 0 hmore (by omega)]
        dsimp only
        rw [Nat.zero_add, show n + ((k - w) / w + 1) = n + (k - w) / w + 1 by omega, h1,
          List.append_assoc, e]
      · cases m with
        | zero => exact S.zero _ _
        | succ m =>
          rw [S.succ, find_more w 0 hmore (by omega)]
          dsimp only
          rw [Nat.zero_add]
          exact h2 m (by omega)

/-- What it means to succeed. -/
theorem some_iff (S : Scan sep w f g h) (hw : 0 < w) (hs : sep ≠ []) {l ts : List TT} {c : Code} {n : Nat} :
    f n l ts = some c ↔
      (Free sep ts ∧ ∃ m, n = m + ts.length / w + 1 ∧ g m (l ++ ts) = some c) ∨
      ∃ a b, First sep ts a b ∧ ∃ m, n = m + a.length / w + 1 ∧ h m (l ++ a) b = some c := by
  constructor
  · intro hc
    rcases free_or_first sep ts with hf | ⟨a, b, hf⟩
    · left
      refine ⟨hf, ?_⟩
      by_cases hn : n ≤ ts.length / w
      · rw [(S.free hw hf l 0).2 n hn] at hc; cases hc
      · refine ⟨n - ts.length / w - 1, by omega, ?_⟩
        rw [← (S.free hw hf l _).1, ← hc]
        congr 1
        omega
    · right
      refine ⟨a, b, hf, ?_⟩
      by_cases hn : n ≤ a.length / w
      · rw [(S.first hw hs hf l 0).2 n hn] at hc; cases hc
      · refine ⟨n - a.length / w - 1, by omega, ?_⟩
        rw [← (S.first hw hs hf l _).1, ← hc]
        congr 1
        omega
  · rintro (⟨hf, m, rfl, hm⟩ | ⟨a, b, hf, m, rfl, hm⟩)
    · rw [(S.free hw hf l m).1, hm]
    · rw [(S.first hw hs hf l m).1, hm]

end Scan

/-! ### Occurrences of separators -/

theorem Free.not_mem {t : Tok} {ts : List TT} : Free [t] ts ↔ .tok t ∉ ts := by
  constructor
  · intro h hm
    obtain ⟨x, y, hx⟩ := List.append_of_mem hm
    exact h x y (by rw [hx]; simp)
  · intro h x y hx
    exact h (by rw [hx]; simp)

/-- A separator does not reach across a token which is not in it. -/
theorem Free.append {sep : List Tok} {a b : List TT} {t : Tok} (ha : Free sep a) (hb : Free sep b)
    (ht : t ∉ sep) : Free sep (a ++ .tok t :: b) := by
  intro x y h
  rw [List.append_assoc, List.append_eq_append_iff] at h
  rcases h with ⟨u, rfl, h⟩ | ⟨u, rfl, h⟩
  · cases u with
    | nil =>
      rw [List.nil_append] at h
      cases sep with
      | nil => exact ha a [] (by simp)
      | cons s sep =>
        simp only [List.map_cons, List.cons_append, List.cons.injEq, TT.tok.injEq] at h
        exact ht (by rw [← h.1]; simp)
    | cons z u =>
      simp only [List.cons_append, List.cons.injEq] at h
      exact hb u y (by rw [h.2]; simp)
  · rw [List.append_eq_append_iff] at h
    rcases h with ⟨v, rfl, h⟩ | ⟨v, h1, h2⟩
    · exact ha x v (by simp)
    · cases v with
      | nil =>
        refine ha x [] ?_
        rw [h1]; simp
      | cons z v =>
        simp only [List.cons_append, List.cons.injEq] at h2
        obtain ⟨rfl, _⟩ := h2
        have hm : TT.tok t ∈ toks sep := by rw [h1]; simp
        simp only [List.mem_map, TT.tok.injEq, exists_eq_right] at hm
        exact ht hm

theorem Free.snoc {s : Tok} {sep : List Tok} (hs : sep ≠ []) {a : List TT} {t : Tok}
    (ha : Free (s :: sep) a) (ht : t ∉ sep) : Free (s :: sep) (a ++ [.tok t]) := by
  intro x y h
  rcases List.eq_nil_or_concat y with rfl | ⟨y', z, rfl⟩
  · rcases List.eq_nil_or_concat sep with rfl | ⟨sep', u, rfl⟩
    · exact hs rfl
    · simp only [List.concat_eq_append] at h ht
      have h' : a ++ [.tok t] = (x ++ toks (s :: sep')) ++ [.tok u] := by rw [h]; simp
      have := (List.append_inj' h' rfl).2
      simp only [List.cons.injEq, TT.tok.injEq, and_true] at this
      exact ht (by rw [this]; simp)
  · rw [List.concat_eq_append, ← List.append_assoc] at h
    exact ha x y' (List.append_inj' h rfl).1

/-- A separator which begins with a token not found further on in it does not overlap itself. -/
theorem first_of_free {s : Tok} {sep : List Tok} (hs : s ∉ sep) {a : List TT} (ha : Free (s :: sep) a)
    (b : List TT) : First (s :: sep) (a ++ toks (s :: sep) ++ b) a b := by
  refine ⟨rfl, fun x y h => ?_⟩
  apply Classical.byContradiction
  intro hlt
  rw [List.append_assoc, List.append_assoc, List.append_eq_append_iff] at h
  rcases h with ⟨u, rfl, _⟩ | ⟨u, rfl, h⟩
  · exact hlt (by simp)
  · rw [List.append_eq_append_iff] at h
    rcases h with ⟨v, rfl, _⟩ | ⟨v, h1, h2⟩
    · exact ha x v (by simp)
    · cases u with
      | nil => exact hlt (by simp)
      | cons z u =>
        simp only [List.map_cons, List.cons_append, List.cons.injEq] at h1
        cases v with
        | nil =>
          refine ha x [] ?_
          rw [← h1.1]
          simp [h1.2]
        | cons z' v =>
          simp only [List.map_cons, List.cons_append, List.cons.injEq] at h2
          have hm : TT.tok s ∈ toks sep := by unfold toks; rw [h1.2, h2.1]; simp
          simp only [List.mem_map, TT.tok.injEq, exists_eq_right] at hm
          exact hs hm

theorem First.unique {sep : List Tok} {ts a b a' b' : List TT} (h : First sep ts a b)
    (h' : First sep ts a' b') : a = a' ∧ b = b' := by
  have hl : a.length = a'.length := Nat.le_antisymm (h.2 _ _ h'.1) (h'.2 _ _ h.1)
  have e := h.1.symm.trans h'.1
  rw [List.append_assoc, List.append_assoc] at e
  obtain ⟨e1, e2⟩ := List.append_inj e hl
  exact ⟨e1, (List.append_inj e2 rfl).2⟩

theorem Free.not_first {sep : List Tok} {ts a b : List TT} (h : Free sep ts) : ¬ First sep ts a b :=
  fun h' => h a b h'.1

/-! ### Invocations -/

/-- The tables of rules are windows. -/
structure Windows (T : Tables) (e a k s : Nat) : Prop where
  expr : T.expr = window 0 e
  alt : T.alt = window 0 a
  skip : T.skip = window 0 k
  statement : T.statement = window 0 s
  expr_pos : 0 < e
  alt_pos : 0 < a
  skip_pos : 0 < k
  statement_pos : 0 < s

theorem tables_windows : Windows tables 8 8 5 11 :=
  ⟨rfl, rfl, rfl, rfl, by decide, by decide, by decide, by decide⟩

theorem simple_windows : Windows simpleTables 1 1 1 1 :=
  ⟨rfl, rfl, rfl, rfl, by decide, by decide, by decide, by decide⟩

section

variable {T : Tables} {R : Fragments} {we wa wk ws : Nat}

theorem scan_statement (W : Windows T we wa wk ws) (v : Var) :
    Scan [.semi] ws (fun n l ts => expand T R n (.statement v l ts))
      (fun n x => expand T R n (.bind v x [])) (fun n x tail => expand T R n (.bind v x tail)) := by
  refine ⟨fun l ts => rfl, fun n l ts => ?_⟩
  rw [expand, W.statement]
  rfl

theorem scan_expr (W : Windows T we wa wk ws) :
    Scan [.shr] we (fun n l ts => expand T R n (.expr l ts)) (fun n x => expand T R n (.alt [] x))
      (fun n x tail => do
        let a ← expand T R n (.alt [] x)
        let b ← expand T R n (.expr [] tail)
        some (.bind .wild a b)) := by
  refine ⟨fun l ts => rfl, fun n l ts => ?_⟩
  rw [expand, W.expr]
  rfl

theorem scan_alt (W : Windows T we wa wk ws) :
    Scan [.lt, .bar, .gt] wa (fun n l ts => expand T R n (.alt l ts)) (fun n x => expand T R n (.skip [] x))
      (fun n x tail => do
        let a ← expand T R n (.skip [] x)
        let b ← expand T R n (.alt [] tail)
        some (.or a b)) := by
  refine ⟨fun l ts => rfl, fun n l ts => ?_⟩
  rw [expand, W.alt]
  rfl

theorem scan_skip (W : Windows T we wa wk ws) :
    Scan [.lt, .star] wk (fun n l ts => expand T R n (.skip l ts)) (fun n x => expand T R n (.term x))
      (fun n x tail => do
        let a ← expand T R n (.term x)
        let b ← expand T R n (.skip [] tail)
        some (.skip a b)) := by
  refine ⟨fun l ts => rfl, fun n l ts => ?_⟩
  rw [expand, W.skip]
  rfl

theorem do_some {x y : Option Code} {f : Code → Code → Code} {c : Code} :
    (do let a ← x; let b ← y; some (f a b)) = some c ↔ ∃ a b, x = some a ∧ y = some b ∧ c = f a b := by
  cases x <;> cases y <;> simp [eq_comm]

theorem statement_some (W : Windows T we wa wk ws) {v : Var} {ts : List TT} {c : Code} {n : Nat} :
    expand T R n (.statement v [] ts) = some c ↔
      (Free [.semi] ts ∧ ∃ m, n = m + ts.length / ws + 1 ∧ expand T R m (.bind v ts []) = some c) ∨
      ∃ a b, First [.semi] ts a b ∧ ∃ m, n = m + a.length / ws + 1 ∧ expand T R m (.bind v a b) = some c :=
  (scan_statement W v).some_iff W.statement_pos (by decide)

theorem expr_some (W : Windows T we wa wk ws) {ts : List TT} {c : Code} {n : Nat} :
    expand T R n (.expr [] ts) = some c ↔
      (Free [.shr] ts ∧ ∃ m, n = m + ts.length / we + 1 ∧ expand T R m (.alt [] ts) = some c) ∨
      ∃ a b, First [.shr] ts a b ∧ ∃ m, n = m + a.length / we + 1 ∧
        ∃ x y, expand T R m (.alt [] a) = some x ∧ expand T R m (.expr [] b) = some y ∧
          c = .bind .wild x y := by
  rw [(scan_expr W).some_iff W.expr_pos (by decide)]
  simp only [do_some, List.nil_append]

theorem alt_some (W : Windows T we wa wk ws) {ts : List TT} {c : Code} {n : Nat} :
    expand T R n (.alt [] ts) = some c ↔
      (Free [.lt, .bar, .gt] ts ∧ ∃ m, n = m + ts.length / wa + 1 ∧ expand T R m (.skip [] ts) = some c) ∨
      ∃ a b, First [.lt, .bar, .gt] ts a b ∧ ∃ m, n = m + a.length / wa + 1 ∧
        ∃ x y, expand T R m (.skip [] a) = some x ∧ expand T R m (.alt [] b) = some y ∧
          c = .or x y := by
  rw [(scan_alt W).some_iff W.alt_pos (by decide)]
  simp only [do_some, List.nil_append]

theorem skip_some (W : Windows T we wa wk ws) {ts : List TT} {c : Code} {n : Nat} :
    expand T R n (.skip [] ts) = some c ↔
      (Free [.lt, .star] ts ∧ ∃ m, n = m + ts.length / wk + 1 ∧ expand T R m (.term ts) = some c) ∨
      ∃ a b, First [.lt, .star] ts a b ∧ ∃ m, n = m + a.length / wk + 1 ∧
        ∃ x y, expand T R m (.term a) = some x ∧ expand T R m (.skip [] b) = some y ∧
          c = .skip x y := by
  rw [(scan_skip W).some_iff W.skip_pos (by decide)]
  simp only [do_some, List.nil_append]

theorem term_some {ts : List TT} {c : Code} {n : Nat} :
    expand T R n (.term ts) = some c ↔ ∃ m, n = m + 1 ∧
      (term R ts = some (.done c) ∨ ∃ inner, term R ts = some (.expr inner) ∧
        expand T R m (.expr [] inner) = some c) := by
  cases n with
  | zero => simp [expand]
  | succ n =>
    rw [expand]
    match term R ts with
    | none => simp
    | some (.expr inner) => simp
    | some (.done d) => simp

theorem block_some {ts : List TT} {c : Code} {n : Nat} :
    expand T R n (.block ts) = some c ↔ ∃ m, n = m + 1 ∧ ∃ v tail, statement R ts = some (v, tail) ∧
      expand T R m (.statement v [] tail) = some c := by
  cases n with
  | zero => simp [expand]
  | succ n =>
    rw [expand]
    match statement R ts with
    | none => simp
    | some (v, tail) =>
      constructor
      · intro h
        exact ⟨n, rfl, v, tail, rfl, h⟩
      · rintro ⟨m, hm, v', tail', h, h'⟩
        obtain rfl : n = m := by omega
        cases h
        exact h'

theorem bind_some {v : Var} {exp tail : List TT} {c : Code} {n : Nat} :
    expand T R n (.bind v exp tail) = some c ↔ ∃ m, n = m + 1 ∧ exp ≠ [] ∧
      ((tail = [] ∧ v = .wild ∧ expand T R m (.expr [] exp) = some c) ∨
      (tail ≠ [] ∧ ∃ x y, expand T R m (.expr [] exp) = some x ∧ expand T R m (.block tail) = some y ∧
        c = .bind v x y)) := by
  cases n with
  | zero => simp [expand]
  | succ n =>
    rw [expand.eq_def]
    dsimp only
    cases exp with
    | nil => simp
    | cons e exp =>
      cases tail with
      | nil => cases v <;> simp
      | cons t tail => simp only [do_some]; simp

/-- More nesting does no harm. -/
theorem expand_succ {n : Nat} {k : Call} {c : Code} (h : expand T R n k = some c) :
    expand T R (n + 1) k = some c := by
  induction n generalizing k c with
  | zero => cases h
  | succ n ih =>
    cases k with
    | block ts =>
      rw [block_some] at h ⊢
      obtain ⟨m, hm, v, tail, h1, h2⟩ := h
      obtain rfl : n = m := by omega
      exact ⟨n + 1, rfl, v, tail, h1, ih h2⟩
    | bind v exp tail =>
      rw [bind_some] at h ⊢
      obtain ⟨m, hm, h1, h2⟩ := h
      obtain rfl : n = m := by omega
      refine ⟨n + 1, rfl, h1, ?_⟩
      rcases h2 with ⟨h2, h3, h4⟩ | ⟨h2, x, y, h3, h4, h5⟩
      · exact .inl ⟨h2, h3, ih h4⟩
      · exact .inr ⟨h2, x, y, ih h3, ih h4, h5⟩
    | term ts =>
      rw [term_some] at h ⊢
      obtain ⟨m, hm, h1⟩ := h
      obtain rfl : n = m := by omega
      refine ⟨n + 1, rfl, ?_⟩
      rcases h1 with h1 | ⟨inner, h1, h2⟩
      · exact .inl h1
      · exact .inr ⟨inner, h1, ih h2⟩
    | statement v data ts =>
      rw [expand] at h ⊢
      split at h
      · cases h
      · exact ih h
      · exact ih h
      · exact ih h
    | expr lhs ts =>
      rw [expand] at h ⊢
      split at h
      · cases h
      · exact ih h
      · rw [do_some] at h ⊢
        obtain ⟨a, b, h1, h2, h3⟩ := h
        exact ⟨a, b, ih h1, ih h2, h3⟩
      · exact ih h
    | alt lhs ts =>
      rw [expand] at h ⊢
      split at h
      · cases h
      · exact ih h
      · rw [do_some] at h ⊢
        obtain ⟨a, b, h1, h2, h3⟩ := h
        exact ⟨a, b, ih h1, ih h2, h3⟩
      · exact ih h
    | skip lhs ts =>
      rw [expand] at h ⊢
      split at h
      · cases h
      · exact ih h
      · rw [do_some] at h ⊢
        obtain ⟨a, b, h1, h2, h3⟩ := h
        exact ⟨a, b, ih h1, ih h2, h3⟩
      · exact ih h

theorem expand_mono {n m : Nat} (hnm : n ≤ m) {k : Call} {c : Code} (h : expand T R n k = some c) :
    expand T R m k = some c := by
  induction hnm with
  | refl => exact h
  | step _ ih => exact expand_succ ih

/-! ### The parts of a term and of a statement -/

theorem all_comma {ts : List TT}
    (h : ts.all (fun t => match t with | .tok .comma => true | _ => false) = true) :
    ts = List.replicate ts.length (.tok .comma) := by
  rw [List.eq_replicate_iff]
  refine ⟨rfl, fun t ht => ?_⟩
  have := List.all_eq_true.mp h t ht
  split at this
  · rfl
  · cases this

theorem params_sound (L : R.Lawful) {k : Nat} {ts : List TT} {ps : List (List TT)}
    (h : params R k ts = some ps) : Params R ts ps := by
  induction k generalizing ts ps with
  | zero =>
    cases ts with
    | nil => cases h; exact .commas 0
    | cons t ts => cases h
  | succ k ih =>
    cases ts with
    | nil => cases h; exact .commas 0
    | cons t ts =>
      unfold params at h
      split at h
      · rename_i ha
        cases h
        rw [all_comma ha]
        exact .commas _
      · split at h
        · rename_i e he
          cases h
          obtain ⟨h1, h2⟩ := L.expr_part he
          rw [List.append_nil] at h1
          rw [h1]
          exact .last h2
        · rename_i e rest he
          rw [Option.map_eq_some_iff] at h
          obtain ⟨es, h1, rfl⟩ := h
          obtain ⟨h2, h3⟩ := L.expr_part he
          rw [h2]
          exact .cons h3 (ih h1)
        · cases h

theorem isExpr_head (L : R.Lawful) {e : List TT} (h : R.IsExpr e) :
    ∃ t r, e = t :: r ∧ t ≠ .tok .comma ∧ t ≠ .tok .at ∧ t ≠ .tok .arrow := by
  cases e with
  | nil => exact absurd h L.expr_ne
  | cons t r =>
    refine ⟨t, r, rfl, ?_, ?_, ?_⟩ <;>
    · rintro rfl
      unfold Fragments.IsExpr at h
      rw [L.expr_start r (by simp)] at h
      cases h

theorem params_complete (L : R.Lawful) {ts : List TT} {ps : List (List TT)} (h : Params R ts ps) :
    ∀ k, ts.length ≤ k → params R k ts = some ps := by
  induction h with
  | commas n =>
    intro k hk
    cases k with
    | zero =>
      rw [List.length_replicate] at hk
      obtain rfl : n = 0 := by omega
      rfl
    | succ k =>
      cases n with
      | zero => rfl
      | succ n =>
        rw [List.replicate_succ, params, if_pos]
        · simp
        · nofun
  | @last e he =>
    intro k hk
    obtain ⟨t, r, rfl, h1, _⟩ := isExpr_head L he
    cases k with
    | zero => simp at hk
    | succ k =>
      rw [params, if_neg, he]
      · intro ha
        have := List.all_eq_true.mp ha t (by simp)
        split at this
        · exact h1 rfl
        · cases this
      · nofun
  | @cons e ts es he hp ih =>
    intro k hk
    have hf := L.expr_follow ts he (.inl rfl)
    obtain ⟨t, r, rfl, h1, _⟩ := isExpr_head L he
    cases k with
    | zero => simp at hk
    | succ k =>
      rw [List.cons_append] at hf ⊢
      rw [params, if_neg, hf]
      · dsimp only
        rw [ih k (by simp at hk; omega)]
        rfl
      · intro ha
        have := List.all_eq_true.mp ha t (by simp)
        split at this
        · exact h1 rfl
        · cases this
      · nofun

theorem typed_sound (L : R.Lawful) {ts t u e : List TT} (h : typed R ts = some ((t, u), e)) :
    ts = t ++ .tok .comma :: (u ++ .tok .colon :: e) ∧ R.IsTy t ∧ R.IsTy u ∧ R.IsExpr e := by
  unfold typed at h
  split at h
  · rename_i t' r1 h1
    split at h
    · rename_i u' r2 h2
      split at h
      · rename_i e' h3
        cases h
        obtain ⟨a1, a2⟩ := L.ty_part h1
        obtain ⟨b1, b2⟩ := L.ty_part h2
        obtain ⟨c1, c2⟩ := L.expr_part h3
        rw [List.append_nil] at c1
        rw [a1, b1, c1]
        exact ⟨rfl, a2, b2, c2⟩
      · cases h
    · cases h
  · cases h

theorem typed_complete (L : R.Lawful) {t u e : List TT} (ht : R.IsTy t) (hu : R.IsTy u)
    (he : R.IsExpr e) : typed R (t ++ .tok .comma :: (u ++ .tok .colon :: e)) = some ((t, u), e) := by
  unfold typed
  rw [L.ty_follow _ ht (.inl rfl)]
  dsimp only
  rw [L.ty_follow _ hu (.inr (.inl rfl))]
  dsimp only
  rw [he]

/-- What the rules for terms accept. -/
theorem term_sound (L : R.Lawful) {ts : List TT} {c : Code} (hp : Plain ts)
    (h : term R ts = some (.done c)) : Derives R .term ts c := by
  unfold term at h
  split at h
  · rename_i r
    rw [Option.map_eq_some_iff] at h
    obtain ⟨⟨⟨t, u⟩, e⟩, h1, h2⟩ := h
    cases h2
    obtain ⟨rfl, h3, h4, h5⟩ := typed_sound L h1
    exact .retTyped h3 h4 h5 hp
  · rename_i r hr
    split at h
    · rename_i e he
      cases h
      obtain ⟨h1, h2⟩ := L.expr_part he
      rw [List.append_nil] at h1
      subst h1
      exact .ret h2 hp
    · cases h
  · rename_i r
    rw [Option.map_eq_some_iff] at h
    obtain ⟨⟨⟨t, u⟩, e⟩, h1, h2⟩ := h
    cases h2
    obtain ⟨rfl, h3, h4, h5⟩ := typed_sound L h1
    exact .errTyped h3 h4 h5 hp
  · rename_i r hr
    split at h
    · rename_i e he
      cases h
      obtain ⟨h1, h2⟩ := L.expr_part he
      rw [List.append_nil] at h1
      subst h1
      exact .err h2 hp
    · cases h
  · cases h
  · rename_i s r h1 h2
    split at h
    · rename_i e he
      cases h
      obtain ⟨h3, h4⟩ := L.expr_part he
      rw [List.append_nil] at h3
      subst h3
      exact .inline (fun hs => h1 hs) (fun hs => h2 hs) h4 hp
    · cases h
  · rename_i f inner h2 h3
    rw [Option.map_eq_some_iff] at h
    obtain ⟨ps, h4, h5⟩ := h
    cases h5
    exact .named (fun hs => h2 hs) (fun hs => h3 hs) (params_sound L h4)
  · cases h

theorem term_expr {ts inner : List TT} (h : term R ts = some (.expr inner)) : ts = [.group .paren inner] := by
  unfold term at h
  split at h
  · rw [Option.map_eq_some_iff] at h
    obtain ⟨_, _, h2⟩ := h
    cases h2
  · split at h <;> cases h
  · rw [Option.map_eq_some_iff] at h
    obtain ⟨_, _, h2⟩ := h
    cases h2
  · split at h <;> cases h
  · cases h; rfl
  · split at h <;> cases h
  · rw [Option.map_eq_some_iff] at h
    obtain ⟨_, _, h2⟩ := h
    cases h2
  · cases h

theorem term_ret (L : R.Lawful) {e : List TT} (he : R.IsExpr e) :
    term R (.tok (.ident "ret") :: e) = some (.done (.ret none e)) := by
  obtain ⟨t, r, rfl, _, h2, _⟩ := isExpr_head L he
  unfold term
  split
  · rename_i heq
    simp only [List.cons.injEq] at heq
    exact absurd heq.2.1 h2
  · rename_i heq
    simp only [List.cons.injEq, true_and] at heq
    subst heq
    rw [he]
  all_goals simp_all

theorem term_err (L : R.Lawful) {e : List TT} (he : R.IsExpr e) :
    term R (.tok (.ident "err") :: e) = some (.done (.err none e)) := by
  obtain ⟨t, r, rfl, _, h2, _⟩ := isExpr_head L he
  unfold term
  split
  · simp_all
  · simp_all
  · rename_i heq
    simp only [List.cons.injEq] at heq
    exact absurd heq.2.1 h2
  · rename_i heq
    simp only [List.cons.injEq, true_and] at heq
    subst heq
    rw [he]
  all_goals simp_all

theorem term_inline {s : String} (h1 : s ≠ "ret") (h2 : s ≠ "err") {e : List TT} (he : R.IsExpr e) :
    term R (.tok (.ident s) :: .tok .arrow :: e) = some (.done (.inline s e)) := by
  unfold Fragments.IsExpr at he
  unfold term
  split <;> simp_all

theorem term_named (L : R.Lawful) {f : String} (h1 : f ≠ "ret") (h2 : f ≠ "err") {ts : List TT}
    {ps : List (List TT)} (hp : Params R ts ps) :
    term R [.tok (.ident f), .group .paren ts] = some (.done (.named f ps)) := by
  have := params_complete L hp ts.length (Nat.le_refl _)
  unfold term
  split <;> simp_all

/-- Terms are accepted. -/
theorem term_complete (L : R.Lawful) {ts : List TT} {c : Code} (h : Derives R .term ts c) :
    term R ts = some (.done c) ∨ ∃ inner, ts = [.group .paren inner] ∧ Derives R .expr inner c ∧
      term R ts = some (.expr inner) := by
  cases h with
  | ret he hp => exact .inl (term_ret L he)
  | retTyped ht hu he hp =>
    left
    simp [term, typed_complete L ht hu he]
  | err he hp => exact .inl (term_err L he)
  | errTyped ht hu he hp =>
    left
    simp [term, typed_complete L ht hu he]
  | parens h => exact .inr ⟨_, rfl, h, rfl⟩
  | inline h1 h2 he hp => exact .inl (term_inline h1 h2 he)
  | named h1 h2 hp => exact .inl (term_named L h1 h2 hp)

theorem statement_sound (L : R.Lawful) {ts tail : List TT} {v : Var} (h : statement R ts = some (v, tail)) :
    (v = .wild ∧ tail = ts) ∨
    (∃ p, v = .pat p ∧ R.IsPat p ∧ ts = .tok .kwLet :: (p ++ .tok .eq :: tail)) ∨
    ∃ x ty, v = .typed x ty ∧ R.IsTy ty ∧
      ts = .tok .kwLet :: .tok (.ident x) :: .tok .colon :: (ty ++ .tok .eq :: tail) := by
  unfold statement at h
  split at h
  · cases h
  · rename_i rest
    split at h
    · cases h
    · rename_i p t tail' hp
      cases h
      obtain ⟨h1, h2⟩ := L.pat_part hp
      exact .inr (.inl ⟨p, rfl, h2, by rw [h1]⟩)
    · split at h
      · rename_i x _ _
        split at h
        · cases h
        · rename_i ty t tail' ht
          cases h
          obtain ⟨h1, h2⟩ := L.ty_part ht
          exact .inr (.inr ⟨x, ty, rfl, h2, by rw [h1]⟩)
        · cases h; exact .inl ⟨rfl, rfl⟩
      · cases h; exact .inl ⟨rfl, rfl⟩
  · cases h; exact .inl ⟨rfl, rfl⟩

theorem statement_wild {ts : List TT} (h : ts ≠ []) (hl : ts.head? ≠ some (.tok .kwLet)) :
    statement R ts = some (.wild, ts) := by
  unfold statement
  split
  · exact absurd rfl h
  · exact absurd rfl hl
  · rfl

theorem statement_pat (L : R.Lawful) {p tail : List TT} (hp : R.IsPat p) (ht : tail ≠ []) :
    statement R (.tok .kwLet :: (p ++ .tok .eq :: tail)) = some (.pat p, tail) := by
  cases tail with
  | nil => exact absurd rfl ht
  | cons t tail =>
    unfold statement
    dsimp only
    rw [L.pat_follow _ hp]

theorem statement_typed (L : R.Lawful) {x : String} {ty tail : List TT} (hp : R.IsTy ty) (ht : tail ≠ []) :
    statement R (.tok .kwLet :: .tok (.ident x) :: .tok .colon :: (ty ++ .tok .eq :: tail)) =
      some (.typed x ty, tail) := by
  cases tail with
  | nil => exact absurd rfl ht
  | cons t tail =>
    unfold statement
    dsimp only
    rw [L.pat_colon]
    dsimp only
    rw [L.ty_follow _ hp (.inr (.inr rfl))]

/-! ### The grammar -/

/-- What is not found outside of groups. -/
def Shape : Level → List TT → Prop
  | .term, ts => Plain ts ∧ .tok .semi ∉ ts
  | .exprSkip, ts => Free [.shr] ts ∧ Free [.lt, .bar, .gt] ts ∧ .tok .semi ∉ ts
  | .exprAlt, ts => Free [.shr] ts ∧ .tok .semi ∉ ts
  | .expr, ts => .tok .semi ∉ ts
  | .block, _ => True

theorem plain_of_toks {ts : List TT} (h1 : .tok .shr ∉ ts) (h2 : .tok .lt ∉ ts) : Plain ts := by
  refine ⟨Free.not_mem.mpr h1, ?_, ?_⟩
  · intro x y h
    exact h2 (by rw [h]; simp)
  · intro x y h
    exact h2 (by rw [h]; simp)

theorem Derives.shape (L : R.Lawful) {l : Level} {ts : List TT} {c : Code} (h : Derives R l ts c) :
    Shape l ts ∧ ts ≠ [] ∧ (l ≠ .block → ts.head? ≠ some (.tok .kwLet)) := by
  induction h with
  | ret he hp | err he hp =>
    refine ⟨⟨hp, ?_⟩, by simp, by simp⟩
    have := L.expr_semi he
    simpa using this
  | retTyped ht hu he hp | errTyped ht hu he hp =>
    refine ⟨⟨hp, ?_⟩, by simp, by simp⟩
    have := L.expr_semi he
    have := L.ty_semi ht
    have := L.ty_semi hu
    simp_all
  | parens _ _ =>
    exact ⟨⟨plain_of_toks (by simp) (by simp), by simp⟩, by simp, by simp⟩
  | inline h1 h2 he hp =>
    refine ⟨⟨hp, ?_⟩, by simp, by simp⟩
    have := L.expr_semi he
    simpa using this
  | named _ _ _ =>
    exact ⟨⟨plain_of_toks (by simp) (by simp), by simp⟩, by simp, by simp⟩
  | skipTerm _ ih => exact ⟨⟨ih.1.1.1, ih.1.1.2.1, ih.1.2⟩, ih.2.1, fun _ => ih.2.2 (by decide)⟩
  | altSkip _ ih => exact ⟨⟨ih.1.1, ih.1.2.2⟩, ih.2.1, fun _ => ih.2.2 (by decide)⟩
  | exprAlt _ ih => exact ⟨ih.1.2, ih.2.1, fun _ => ih.2.2 (by decide)⟩
  | blockExpr _ ih => exact ⟨trivial, ih.2.1, fun h => absurd rfl h⟩
  | @skip a b c d _ _ ih1 ih2 =>
    have e : a ++ toks [.lt, .star] ++ b = (a ++ [.tok .lt]) ++ .tok .star :: b := by simp
    refine ⟨⟨?_, ?_, ?_⟩, ?_, ?_⟩
    · have h1 := Free.not_mem.mp ih1.1.1.1
      have h2 := Free.not_mem.mp ih2.1.1
      rw [Free.not_mem]
      simp_all
    · rw [e]
      exact Free.append (Free.snoc (by decide) ih1.1.1.2.1 (by decide)) ih2.1.2.1 (by decide)
    · have h1 := ih1.1.2
      have h2 := ih2.1.2.2
      simp_all
    · simp
    · intro _
      have h1 := ih1.2.2 (by decide)
      have h2 := ih1.2.1
      cases a with
      | nil => exact absurd rfl h2
      | cons t a => simpa using h1
  | @or a b c d _ _ ih1 ih2 =>
    refine ⟨⟨?_, ?_⟩, ?_, ?_⟩
    · have h1 := Free.not_mem.mp ih1.1.1
      have h2 := Free.not_mem.mp ih2.1.1
      rw [Free.not_mem]
      simp_all
    · have h1 := ih1.1.2.2
      have h2 := ih2.1.2
      simp_all
    · simp
    · intro _
      have h1 := ih1.2.2 (by decide)
      have h2 := ih1.2.1
      cases a with
      | nil => exact absurd rfl h2
      | cons t a => simpa using h1
  | @andThen a b c d _ _ ih1 ih2 =>
    refine ⟨?_, ?_, ?_⟩
    · have h1 := ih1.1.2
      have h2 := ih2.1
      unfold Shape at h2 ⊢
      simp_all
    · simp
    · intro _
      have h1 := ih1.2.2 (by decide)
      have h2 := ih1.2.1
      cases a with
      | nil => exact absurd rfl h2
      | cons t a => simpa using h1
  | action _ _ _ _ => exact ⟨trivial, by simp, fun h => absurd rfl h⟩
  | letPat _ _ _ _ _ => exact ⟨trivial, by simp, fun h => absurd rfl h⟩
  | letTyped _ _ _ _ _ => exact ⟨trivial, by simp, fun h => absurd rfl h⟩

theorem lt_one (m q : Nat) : m < m + q + 1 := by omega
theorem lt_two (m q : Nat) : m < m + 1 + q + 1 + 1 := by omega

/-- Whatever expands follows the grammar, up to a `;` at the end. -/
theorem expand_sound (W : Windows T we wa wk ws) (L : R.Lawful) (n : Nat) :
    (∀ ts c, Plain ts → expand T R n (.term ts) = some c → Derives R .term ts c) ∧
    (∀ ts c, Free [.shr] ts → Free [.lt, .bar, .gt] ts → expand T R n (.skip [] ts) = some c →
      Derives R .exprSkip ts c) ∧
    (∀ ts c, Free [.shr] ts → expand T R n (.alt [] ts) = some c → Derives R .exprAlt ts c) ∧
    (∀ ts c, expand T R n (.expr [] ts) = some c → Derives R .expr ts c) ∧
    (∀ ts c, expand T R n (.block ts) = some c →
      Derives R .block ts c ∨ ∃ ts', ts = ts' ++ toks [.semi] ∧ Derives R .block ts' c) := by
  induction n using Nat.strongRecOn with
  | _ n ih =>
    refine ⟨?_, ?_, ?_, ?_, ?_⟩
    · intro ts c hp h
      rw [term_some] at h
      obtain ⟨m, rfl, h⟩ := h
      rcases h with h | ⟨inner, h1, h2⟩
      · exact term_sound L hp h
      · rw [term_expr h1]
        exact .parens ((ih m (Nat.lt_succ_self _)).2.2.2.1 _ _ h2)
    · intro ts c hf1 hf2 h
      rw [skip_some W] at h
      rcases h with ⟨hf, m, rfl, h⟩ | ⟨a, b, hf, m, rfl, x, y, h1, h2, rfl⟩
      · exact .skipTerm ((ih m (lt_one _ _)).1 _ _ ⟨hf1, hf2, hf⟩ h)
      · have hfa := hf.free (by decide)
        obtain ⟨rfl, _⟩ := hf
        exact .skip ((ih m (lt_one _ _)).1 _ _ ⟨hf1.left.left, hf2.left.left, hfa⟩ h1)
          ((ih m (lt_one _ _)).2.1 _ _ hf1.right hf2.right h2)
    · intro ts c hf1 h
      rw [alt_some W] at h
      rcases h with ⟨hf, m, rfl, h⟩ | ⟨a, b, hf, m, rfl, x, y, h1, h2, rfl⟩
      · exact .altSkip ((ih m (lt_one _ _)).2.1 _ _ hf1 hf h)
      · have hfa := hf.free (by decide)
        obtain ⟨rfl, _⟩ := hf
        exact .or ((ih m (lt_one _ _)).2.1 _ _ hf1.left.left hfa h1)
          ((ih m (lt_one _ _)).2.2.1 _ _ hf1.right h2)
    · intro ts c h
      rw [expr_some W] at h
      rcases h with ⟨hf, m, rfl, h⟩ | ⟨a, b, hf, m, rfl, x, y, h1, h2, rfl⟩
      · exact .exprAlt ((ih m (lt_one _ _)).2.2.1 _ _ hf h)
      · have hfa := hf.free (by decide)
        obtain ⟨rfl, _⟩ := hf
        exact .andThen ((ih m (lt_one _ _)).2.2.1 _ _ hfa h1) ((ih m (lt_one _ _)).2.2.2.1 _ _ h2)
    · intro ts c h
      rw [block_some] at h
      obtain ⟨m, rfl, v, tail, hst, h⟩ := h
      rw [statement_some W] at h
      rcases h with ⟨_, k, rfl, h⟩ | ⟨a, b, hf, k, rfl, h⟩
      · rw [bind_some] at h
        obtain ⟨j, rfl, _, h⟩ := h
        rcases h with ⟨_, rfl, h⟩ | ⟨h, _⟩
        · rcases statement_sound L hst with ⟨_, rfl⟩ | ⟨_, hv, _⟩ | ⟨_, _, hv, _⟩
          · exact .inl (.blockExpr ((ih j (lt_two _ _)).2.2.2.1 _ _ h))
          · cases hv
          · cases hv
        · exact absurd rfl h
      · obtain ⟨rfl, _⟩ := hf
        rw [bind_some] at h
        obtain ⟨j, rfl, _, h⟩ := h
        rcases h with ⟨rfl, rfl, h⟩ | ⟨_, x, y, h1, h2, rfl⟩
        · rcases statement_sound L hst with ⟨_, rfl⟩ | ⟨_, hv, _⟩ | ⟨_, _, hv, _⟩
          · exact .inr ⟨a, by simp, .blockExpr ((ih j (lt_two _ _)).2.2.2.1 _ _ h)⟩
          · cases hv
          · cases hv
        · have hx := (ih j (lt_two _ _)).2.2.2.1 _ _ h1
          have hy := (ih j (lt_two _ _)).2.2.2.2 _ _ h2
          rcases statement_sound L hst with ⟨rfl, rfl⟩ | ⟨p, rfl, hp, rfl⟩ | ⟨z, ty, rfl, hty, rfl⟩
          · rcases hy with hy | ⟨b', rfl, hy⟩
            · exact .inl (.action hx hy)
            · exact .inr ⟨_, by simp, .action hx hy⟩
          · rcases hy with hy | ⟨b', rfl, hy⟩
            · exact .inl (.letPat hp hx hy)
            · exact .inr ⟨_, by simp, .letPat hp hx hy⟩
          · rcases hy with hy | ⟨b', rfl, hy⟩
            · exact .inl (.letTyped hty hx hy)
            · exact .inr ⟨_, by simp, .letTyped hty hx hy⟩

theorem size_append (a b : List TT) : size (a ++ b) = size a + size b := by
  induction a with
  | nil => simp [size]
  | cons t a ih => rw [List.cons_append, size, size, ih]; omega

theorem length_le_size (ts : List TT) : ts.length ≤ size ts := by
  induction ts with
  | nil => simp
  | cons t ts ih =>
    rw [List.length_cons, size]
    have : 1 ≤ t.size := by cases t <;> simp [TT.size]
    omega

/-- The depth which suffices for a level of the grammar. -/
def Level.Within : Level → List TT → Nat → Prop
  | .term, ts, n => n + 7 * ts.length ≤ 7 * size ts + 1
  | .exprSkip, ts, n => n + 7 * ts.length ≤ 7 * size ts + 3 * ts.length
  | .exprAlt, ts, n => n + 7 * ts.length ≤ 7 * size ts + 5 * ts.length
  | .expr, ts, n => n ≤ 7 * size ts
  | .block, ts, n => n ≤ 7 * size ts + 4 * ts.length

theorem bind_action {v : Var} {a b : List TT} {x y : Code} {n1 n2 : Nat} (ha : a ≠ []) (hb : b ≠ [])
    (h1 : expand T R n1 (.expr [] a) = some x) (h2 : expand T R n2 (.block b) = some y) :
    expand T R (max n1 n2 + 1) (.bind v a b) = some (.bind v x y) :=
  bind_some.mpr ⟨_, rfl, ha, .inr ⟨hb, x, y, expand_mono (Nat.le_max_left _ _) h1,
    expand_mono (Nat.le_max_right _ _) h2, rfl⟩⟩

theorem within_one (ts : List TT) : Level.Within .term ts 1 := by
  have := length_le_size ts
  unfold Level.Within
  omega

/-- Whatever follows the grammar expands. -/
theorem expand_complete (W : Windows T we wa wk ws) (L : R.Lawful) {l : Level} {ts : List TT} {c : Code}
    (h : Derives R l ts c) : ∃ n, l.Within ts n ∧ expand T R n (l.call ts) = some c := by
  induction h with
  | ret he hp => exact ⟨1, within_one _, term_some.mpr ⟨0, rfl, .inl (term_ret L he)⟩⟩
  | retTyped ht hu he hp =>
    refine ⟨1, within_one _, term_some.mpr ⟨0, rfl, .inl ?_⟩⟩
    rcases term_complete L (.retTyped ht hu he hp) with h | ⟨_, h, _⟩
    · exact h
    · simp at h
  | err he hp => exact ⟨1, within_one _, term_some.mpr ⟨0, rfl, .inl (term_err L he)⟩⟩
  | errTyped ht hu he hp =>
    refine ⟨1, within_one _, term_some.mpr ⟨0, rfl, .inl ?_⟩⟩
    rcases term_complete L (.errTyped ht hu he hp) with h | ⟨_, h, _⟩
    · exact h
    · simp at h
  | parens _ ih =>
    obtain ⟨n, hw, hn⟩ := ih
    refine ⟨n + 1, ?_, term_some.mpr ⟨n, rfl, .inr ⟨_, rfl, hn⟩⟩⟩
    simp only [Level.Within, size, TT.size, List.length_cons, List.length_nil] at hw ⊢
    omega
  | inline h1 h2 he hp =>
    exact ⟨1, within_one _, term_some.mpr ⟨0, rfl, .inl (term_inline h1 h2 he)⟩⟩
  | named h1 h2 hp =>
    exact ⟨1, within_one _, term_some.mpr ⟨0, rfl, .inl (term_named L h1 h2 hp)⟩⟩
  | @skipTerm ts x h ih =>
    obtain ⟨n, hw, hn⟩ := ih
    obtain ⟨hs, hne, _⟩ := h.shape L
    refine ⟨_, ?_, (skip_some W).mpr (.inl ⟨hs.1.2.2, n, rfl, hn⟩)⟩
    have := List.length_pos_iff.mpr hne
    have := Nat.div_le_self ts.length wk
    simp only [Level.Within] at hw ⊢
    omega
  | @skip a b x y ha hb ih1 ih2 =>
    obtain ⟨n1, hw1, h1⟩ := ih1
    obtain ⟨n2, hw2, h2⟩ := ih2
    refine ⟨_, ?_, (skip_some W).mpr (.inr ⟨a, b, first_of_free (by decide) (ha.shape L).1.1.2.2 b,
      max n1 n2, rfl, x, y, expand_mono (Nat.le_max_left _ _) h1, expand_mono (Nat.le_max_right _ _) h2,
      rfl⟩)⟩
    have := length_le_size a
    have := length_le_size b
    have := Nat.div_le_self a.length wk
    simp only [Level.Within, size_append, List.length_append, List.map_cons, List.map_nil, size, TT.size,
      List.length_cons, List.length_nil] at hw1 hw2 ⊢
    omega
  | @altSkip ts x h ih =>
    obtain ⟨n, hw, hn⟩ := ih
    obtain ⟨hs, hne, _⟩ := h.shape L
    refine ⟨_, ?_, (alt_some W).mpr (.inl ⟨hs.2.1, n, rfl, hn⟩)⟩
    have := List.length_pos_iff.mpr hne
    have := Nat.div_le_self ts.length wa
    simp only [Level.Within] at hw ⊢
    omega
  | @or a b x y ha hb ih1 ih2 =>
    obtain ⟨n1, hw1, h1⟩ := ih1
    obtain ⟨n2, hw2, h2⟩ := ih2
    refine ⟨_, ?_, (alt_some W).mpr (.inr ⟨a, b, first_of_free (by decide) (ha.shape L).1.2.1 b,
      max n1 n2, rfl, x, y, expand_mono (Nat.le_max_left _ _) h1, expand_mono (Nat.le_max_right _ _) h2,
      rfl⟩)⟩
    have := length_le_size a
    have := length_le_size b
    have := Nat.div_le_self a.length wa
    simp only [Level.Within, size_append, List.length_append, List.map_cons, List.map_nil, size, TT.size,
      List.length_cons, List.length_nil] at hw1 hw2 ⊢
    omega
  | @exprAlt ts x h ih =>
    obtain ⟨n, hw, hn⟩ := ih
    obtain ⟨hs, hne, _⟩ := h.shape L
    refine ⟨_, ?_, (expr_some W).mpr (.inl ⟨hs.1, n, rfl, hn⟩)⟩
    have := List.length_pos_iff.mpr hne
    have := Nat.div_le_self ts.length we
    simp only [Level.Within] at hw ⊢
    omega
  | @andThen a b x y ha hb ih1 ih2 =>
    obtain ⟨n1, hw1, h1⟩ := ih1
    obtain ⟨n2, hw2, h2⟩ := ih2
    refine ⟨_, ?_, (expr_some W).mpr (.inr ⟨a, b, first_of_free (by decide) (ha.shape L).1.1 b,
      max n1 n2, rfl, x, y, expand_mono (Nat.le_max_left _ _) h1, expand_mono (Nat.le_max_right _ _) h2,
      rfl⟩)⟩
    have := length_le_size a
    have := length_le_size b
    have := Nat.div_le_self a.length we
    simp only [Level.Within, size_append, List.map_cons, List.map_nil, size, TT.size] at hw1 hw2 ⊢
    omega
  | @blockExpr ts x h ih =>
    obtain ⟨n, hw, hn⟩ := ih
    obtain ⟨hs, hne, hlet⟩ := h.shape L
    refine ⟨_, ?_, block_some.mpr ⟨_, rfl, _, _, statement_wild hne (hlet (by decide)),
      (statement_some W).mpr (.inl ⟨Free.not_mem.mpr hs, _, rfl,
        bind_some.mpr ⟨n, rfl, hne, .inl ⟨rfl, rfl, hn⟩⟩⟩)⟩⟩
    have := List.length_pos_iff.mpr hne
    have := Nat.div_le_self ts.length ws
    simp only [Level.Within] at hw ⊢
    omega
  | @action a b x y ha hb ih1 ih2 =>
    obtain ⟨n1, hw1, h1⟩ := ih1
    obtain ⟨n2, hw2, h2⟩ := ih2
    obtain ⟨hs, hne, hlet⟩ := ha.shape L
    refine ⟨_, ?_, block_some.mpr ⟨_, rfl, _, _, statement_wild (by simp) ?_,
      (statement_some W).mpr (.inr ⟨a, b, first_of_free (by decide) (Free.not_mem.mpr hs) b, _, rfl,
        bind_action hne (hb.shape L).2.1 h1 h2⟩)⟩⟩
    · have := length_le_size a
      have := length_le_size b
      have := Nat.div_le_self a.length ws
      simp only [Level.Within, size_append, List.length_append, List.map_cons, List.map_nil, size, TT.size,
        List.length_cons, List.length_nil] at hw1 hw2 ⊢
      omega
    · have h1 := hlet (by decide)
      cases a with
      | nil => exact absurd rfl hne
      | cons t a => simpa using h1
  | @letPat p a b x y hp ha hb ih1 ih2 =>
    obtain ⟨n1, hw1, h1⟩ := ih1
    obtain ⟨n2, hw2, h2⟩ := ih2
    obtain ⟨hs, hne, hlet⟩ := ha.shape L
    refine ⟨_, ?_, block_some.mpr ⟨_, rfl, _, _, statement_pat L hp (by simp),
      (statement_some W).mpr (.inr ⟨a, b, first_of_free (by decide) (Free.not_mem.mpr hs) b, _, rfl,
        bind_action hne (hb.shape L).2.1 h1 h2⟩)⟩⟩
    have := length_le_size a
    have := length_le_size b
    have := Nat.div_le_self a.length ws
    simp only [Level.Within, size_append, List.length_append, List.map_cons, List.map_nil, size, TT.size,
      List.length_cons, List.length_nil] at hw1 hw2 ⊢
    omega
  | @letTyped z ty a b x y hp ha hb ih1 ih2 =>
    obtain ⟨n1, hw1, h1⟩ := ih1
    obtain ⟨n2, hw2, h2⟩ := ih2
    obtain ⟨hs, hne, hlet⟩ := ha.shape L
    refine ⟨_, ?_, block_some.mpr ⟨_, rfl, _, _, statement_typed L hp (by simp),
      (statement_some W).mpr (.inr ⟨a, b, first_of_free (by decide) (Free.not_mem.mpr hs) b, _, rfl,
        bind_action hne (hb.shape L).2.1 h1 h2⟩)⟩⟩
    have := length_le_size a
    have := length_le_size b
    have := Nat.div_le_self a.length ws
    simp only [Level.Within, size_append, List.length_append, List.map_cons, List.map_nil, size, TT.size,
      List.length_cons, List.length_nil] at hw1 hw2 ⊢
    omega

/-- Invocations with nothing eaten yet. -/
def Call.Start : Call → Prop
  | .statement _ data _ => data = []
  | .expr lhs _ => lhs = []
  | .alt lhs _ => lhs = []
  | .skip lhs _ => lhs = []
  | _ => True

theorem depth_le {n m n' len w w' : Nat} (hn : n = m + len / w + 1) (hw : 0 < w) (hle : w ≤ w') (hm : n' ≤ m) :
    n' + len / w' + 1 ≤ n := by
  have := Nat.div_le_div_left (a := len) hle hw
  omega

/-- Windows of any size expand alike, and larger ones take no more invocations. -/
theorem expand_windows {T' : Tables} {we' wa' wk' ws' : Nat} (W : Windows T we wa wk ws)
    (W' : Windows T' we' wa' wk' ws') (n : Nat) : ∀ (k : Call) (c : Code),
      expand T R n k = some c → k.Start → ∃ n', expand T' R n' k = some c ∧
        (we ≤ we' → wa ≤ wa' → wk ≤ wk' → ws ≤ ws' → n' ≤ n) := by
  induction n using Nat.strongRecOn with
  | _ n ih =>
    intro k c h hk
    cases k with
    | term ts =>
      rw [term_some] at h
      obtain ⟨m, rfl, h⟩ := h
      rcases h with h | ⟨inner, h1, h2⟩
      · exact ⟨1, term_some.mpr ⟨0, rfl, .inl h⟩, fun _ _ _ _ => by omega⟩
      · obtain ⟨n', h3, h4⟩ := ih m (by omega) _ _ h2 rfl
        exact ⟨n' + 1, term_some.mpr ⟨n', rfl, .inr ⟨inner, h1, h3⟩⟩,
          fun a b c d => by have := h4 a b c d; omega⟩
    | block ts =>
      rw [block_some] at h
      obtain ⟨m, rfl, v, tail, h1, h2⟩ := h
      obtain ⟨n', h3, h4⟩ := ih m (by omega) _ _ h2 rfl
      exact ⟨n' + 1, block_some.mpr ⟨n', rfl, v, tail, h1, h3⟩,
          fun a b c d => by have := h4 a b c d; omega⟩
    | bind v exp tail =>
      rw [bind_some] at h
      obtain ⟨m, rfl, h0, h⟩ := h
      rcases h with ⟨h1, h2, h3⟩ | ⟨h1, x, y, h2, h3, rfl⟩
      · obtain ⟨n', h4, h5⟩ := ih m (by omega) _ _ h3 rfl
        exact ⟨n' + 1, bind_some.mpr ⟨n', rfl, h0, .inl ⟨h1, h2, h4⟩⟩,
          fun a b c d => by have := h5 a b c d; omega⟩
      · obtain ⟨n', h4, h5⟩ := ih m (by omega) _ _ h2 rfl
        obtain ⟨n'', h6, h7⟩ := ih m (by omega) _ _ h3 trivial
        exact ⟨max n' n'' + 1, bind_some.mpr ⟨_, rfl, h0, .inr ⟨h1, x, y,
          expand_mono (Nat.le_max_left _ _) h4, expand_mono (Nat.le_max_right _ _) h6, rfl⟩⟩,
          fun a b c d => by have := h5 a b c d; have := h7 a b c d; omega⟩
    | statement v data ts =>
      obtain rfl : data = [] := hk
      rw [statement_some W] at h
      rcases h with ⟨hf, m, hn, h⟩ | ⟨a, b, hf, m, hn, h⟩
      · obtain ⟨n', h1, h2⟩ := ih m (by rw [hn]; exact lt_one _ _) _ _ h trivial
        exact ⟨_, (statement_some W').mpr (.inl ⟨hf, n', rfl, h1⟩),
          fun a b c d => depth_le hn W.statement_pos d (h2 a b c d)⟩
      · obtain ⟨n', h1, h2⟩ := ih m (by rw [hn]; exact lt_one _ _) _ _ h trivial
        exact ⟨_, (statement_some W').mpr (.inr ⟨a, b, hf, n', rfl, h1⟩),
          fun a b c d => depth_le hn W.statement_pos d (h2 a b c d)⟩
    | expr lhs ts =>
      obtain rfl : lhs = [] := hk
      rw [expr_some W] at h
      rcases h with ⟨hf, m, hn, h⟩ | ⟨a, b, hf, m, hn, x, y, hx, hy, rfl⟩
      · obtain ⟨n', h1, h2⟩ := ih m (by rw [hn]; exact lt_one _ _) _ _ h rfl
        exact ⟨_, (expr_some W').mpr (.inl ⟨hf, n', rfl, h1⟩),
          fun a b c d => depth_le hn W.expr_pos a (h2 a b c d)⟩
      · obtain ⟨n', h1, h2⟩ := ih m (by rw [hn]; exact lt_one _ _) _ _ hx rfl
        obtain ⟨n'', h3, h4⟩ := ih m (by rw [hn]; exact lt_one _ _) _ _ hy rfl
        exact ⟨_, (expr_some W').mpr (.inr ⟨a, b, hf, max n' n'', rfl, x, y,
          expand_mono (Nat.le_max_left _ _) h1, expand_mono (Nat.le_max_right _ _) h3, rfl⟩),
          fun a b c d => depth_le hn W.expr_pos a (Nat.max_le.mpr ⟨h2 a b c d, h4 a b c d⟩)⟩
    | alt lhs ts =>
      obtain rfl : lhs = [] := hk
      rw [alt_some W] at h
      rcases h with ⟨hf, m, hn, h⟩ | ⟨a, b, hf, m, hn, x, y, hx, hy, rfl⟩
      · obtain ⟨n', h1, h2⟩ := ih m (by rw [hn]; exact lt_one _ _) _ _ h rfl
        exact ⟨_, (alt_some W').mpr (.inl ⟨hf, n', rfl, h1⟩),
          fun a b c d => depth_le hn W.alt_pos b (h2 a b c d)⟩
      · obtain ⟨n', h1, h2⟩ := ih m (by rw [hn]; exact lt_one _ _) _ _ hx rfl
        obtain ⟨n'', h3, h4⟩ := ih m (by rw [hn]; exact lt_one _ _) _ _ hy rfl
        exact ⟨_, (alt_some W').mpr (.inr ⟨a, b, hf, max n' n'', rfl, x, y,
          expand_mono (Nat.le_max_left _ _) h1, expand_mono (Nat.le_max_right _ _) h3, rfl⟩),
          fun a b c d => depth_le hn W.alt_pos b (Nat.max_le.mpr ⟨h2 a b c d, h4 a b c d⟩)⟩
    | skip lhs ts =>
      obtain rfl : lhs = [] := hk
      rw [skip_some W] at h
      rcases h with ⟨hf, m, hn, h⟩ | ⟨a, b, hf, m, hn, x, y, hx, hy, rfl⟩
      · obtain ⟨n', h1, h2⟩ := ih m (by rw [hn]; exact lt_one _ _) _ _ h trivial
        exact ⟨_, (skip_some W').mpr (.inl ⟨hf, n', rfl, h1⟩),
          fun a b c d => depth_le hn W.skip_pos c (h2 a b c d)⟩
      · obtain ⟨n', h1, h2⟩ := ih m (by rw [hn]; exact lt_one _ _) _ _ hx trivial
        obtain ⟨n'', h3, h4⟩ := ih m (by rw [hn]; exact lt_one _ _) _ _ hy rfl
        exact ⟨_, (skip_some W').mpr (.inr ⟨a, b, hf, max n' n'', rfl, x, y,
          expand_mono (Nat.le_max_left _ _) h1, expand_mono (Nat.le_max_right _ _) h3, rfl⟩),
          fun a b c d => depth_le hn W.skip_pos c (Nat.max_le.mpr ⟨h2 a b c d, h4 a b c d⟩)⟩

/-- A `;` at the end is accepted. -/
theorem trailing (W : Windows T we wa wk ws) (L : R.Lawful) {l : Level} {ts : List TT} {c : Code}
    (h : Derives R l ts c) : l = .block → ∃ n, expand T R n (.block (ts ++ toks [.semi])) = some c := by
  induction h with
  | ret | retTyped | err | errTyped | parens | inline | named | skipTerm | skip | altSkip | or | exprAlt
  | andThen => nofun
  | @blockExpr ts x h _ =>
    intro _
    obtain ⟨n, _, hn⟩ := expand_complete W L h
    obtain ⟨hs, hne, hlet⟩ := h.shape L
    have hf := first_of_free (s := .semi) (sep := []) (by decide) (Free.not_mem.mpr hs) []
    rw [List.append_nil] at hf
    refine ⟨_, block_some.mpr ⟨_, rfl, _, _, statement_wild (by simp) ?_, (statement_some W).mpr
      (.inr ⟨ts, [], hf, _, rfl, bind_some.mpr ⟨n, rfl, hne, .inl ⟨rfl, rfl, hn⟩⟩⟩)⟩⟩
    have h1 := hlet (by decide)
    cases ts with
    | nil => exact absurd rfl hne
    | cons t a => simpa using h1
  | @action a b x y ha hb _ ih =>
    intro _
    obtain ⟨n1, _, h1⟩ := expand_complete W L ha
    obtain ⟨n2, h2⟩ := ih rfl
    obtain ⟨hs, hne, hlet⟩ := ha.shape L
    have hf := first_of_free (s := .semi) (sep := []) (by decide) (Free.not_mem.mpr hs) (b ++ toks [.semi])
    rw [← List.append_assoc] at hf
    refine ⟨_, block_some.mpr ⟨_, rfl, _, _, statement_wild (by simp) ?_, (statement_some W).mpr
      (.inr ⟨a, _, hf, _, rfl, bind_action hne (by simp) h1 h2⟩)⟩⟩
    have h1 := hlet (by decide)
    cases a with
    | nil => exact absurd rfl hne
    | cons t a => simpa using h1
  | @letPat p a b x y hp ha hb _ ih =>
    intro _
    obtain ⟨n1, _, h1⟩ := expand_complete W L ha
    obtain ⟨n2, h2⟩ := ih rfl
    obtain ⟨hs, hne, hlet⟩ := ha.shape L
    have hf := first_of_free (s := .semi) (sep := []) (by decide) (Free.not_mem.mpr hs) (b ++ toks [.semi])
    have e : (.tok .kwLet :: (p ++ .tok .eq :: (a ++ toks [.semi] ++ b))) ++ toks [.semi] =
        .tok .kwLet :: (p ++ .tok .eq :: (a ++ toks [.semi] ++ (b ++ toks [.semi]))) := by simp
    rw [e]
    exact ⟨_, block_some.mpr ⟨_, rfl, _, _, statement_pat L hp (by simp), (statement_some W).mpr
      (.inr ⟨a, _, hf, _, rfl, bind_action hne (by simp) h1 h2⟩)⟩⟩
  | @letTyped z ty a b x y hp ha hb _ ih =>
    intro _
    obtain ⟨n1, _, h1⟩ := expand_complete W L ha
    obtain ⟨n2, h2⟩ := ih rfl
    obtain ⟨hs, hne, hlet⟩ := ha.shape L
    have hf := first_of_free (s := .semi) (sep := []) (by decide) (Free.not_mem.mpr hs) (b ++ toks [.semi])
    have e : (.tok .kwLet :: .tok (.ident z) :: .tok .colon :: (ty ++ .tok .eq :: (a ++ toks [.semi] ++ b))) ++
        toks [.semi] = .tok .kwLet :: .tok (.ident z) :: .tok .colon ::
          (ty ++ .tok .eq :: (a ++ toks [.semi] ++ (b ++ toks [.semi]))) := by simp
    rw [e]
    exact ⟨_, block_some.mpr ⟨_, rfl, _, _, statement_typed L hp (by simp), (statement_some W).mpr
      (.inr ⟨a, _, hf, _, rfl, bind_action hne (by simp) h1 h2⟩)⟩⟩

end

end Chomp.Macro
