import Verif.Model.Ascii
import Verif.Lemmas.Res

namespace Chomp

theorem sliceFrom_ok {b : List I} {n : Nat} (h : n ≤ b.length) (w : σ) :
    sliceFrom b n w = .ok (b.drop n, w) := by simp [sliceFrom, h]

theorem sliceTo_ok {b : List I} {n : Nat} (h : n ≤ b.length) (w : σ) :
    sliceTo b n w = .ok (b.take n, w) := by simp [sliceTo, h]

@[simp] theorem Build.checked_debug : Build.debug.checked = true := rfl

theorem usub_ok [Build] {a b : Nat} (h : b ≤ a) : usub a b = .ok (a - b) := by simp [usub, h]

namespace ParseResult

@[simp] theorem mapErr_pure (r : ParseResult I T E) :
    r.mapErr (fun e => (pure e : M σ E)) = pure r := by
  cases r <;> simp [mapErr]

@[simp] theorem bind_data (conv : E → V) (i : Input I) (t : T)
    (f : Input I → T → M σ (ParseResult I U V)) : (data i t).bind conv f = f i t := by
  simp [bind]

@[simp] theorem bind_error (conv : E → V) (b : List I) (e : E)
    (f : Input I → T → M σ (ParseResult I U V)) :
    (error b e).bind conv f = pure (error b (conv e)) := rfl

@[simp] theorem bind_incomplete (conv : E → V) (n : Nat)
    (f : Input I → T → M σ (ParseResult I U V)) :
    (incomplete n : ParseResult I T E).bind conv f = pure (incomplete n) := rfl

end ParseResult

namespace Parsers

theorem position_eq (f : I → Bool) (b : List I) :
    position f b = if b.all (fun c => !f c) then none
      else some (b.takeWhile (fun c => !f c)).length := by
  induction b with
  | nil => rfl
  | cons c cs ih =>
    simp only [position, ih, List.all_cons, List.takeWhile_cons]
    cases f c <;> simp
    split <;> simp_all

theorem takeWhile_length_le (f : I → Bool) (b : List I) :
    (b.takeWhile f).length ≤ b.length := by
  induction b with
  | nil => simp
  | cons c cs ih => simp only [List.takeWhile_cons]; split <;> simp; exact ih

theorem take_takeWhile_length (f : I → Bool) (b : List I) :
    b.take (b.takeWhile f).length = b.takeWhile f := by
  induction b with
  | nil => simp
  | cons c cs ih => simp only [List.takeWhile_cons]; split <;> simp [ih]

theorem drop_takeWhile_length (f : I → Bool) (b : List I) :
    b.drop (b.takeWhile f).length = b.dropWhile f := by
  induction b with
  | nil => simp
  | cons c cs ih => simp only [List.takeWhile_cons, List.dropWhile_cons]; split <;> simp [ih]

theorem takeWhile_of_all {f : I → Bool} {b : List I} (h : b.all f = true) :
    b.takeWhile f = b := by
  induction b with
  | nil => rfl
  | cons c cs ih =>
    simp only [List.all_cons, Bool.and_eq_true] at h
    simp [h.1, ih h.2]

theorem dropWhile_of_all {f : I → Bool} {b : List I} (h : b.all f = true) :
    b.dropWhile f = [] := by
  induction b with
  | nil => rfl
  | cons c cs ih =>
    simp only [List.all_cons, Bool.and_eq_true] at h
    simp [h.1, ih h.2]

theorem any_eq (i : Input I) (w : σ) :
    any i w = .ok (match i.buf with
      | [] => .incomplete 1
      | c :: r => .data ⟨i.mode, r⟩ c, w) := by
  obtain ⟨m, b⟩ := i
  cases b <;> rfl

theorem satisfy_eq (v : Bool) (f : I → Bool) (i : Input I) (w : σ) :
    satisfy v f i w = .ok (match i.buf with
      | [] => .incomplete 1
      | c :: r => if f c then .data ⟨i.mode, r⟩ c else .error i.buf (Err.unexpected v), w) := by
  obtain ⟨m, b⟩ := i
  cases b with
  | nil => rfl
  | cons c r =>
    simp only [satisfy]
    split <;> rfl

theorem satisfyWith_eq (v : Bool) (f : I → T) (p : T → Bool) (i : Input I) (w : σ) :
    satisfyWith v f p i w = .ok (match i.buf with
      | [] => .incomplete 1
      | c :: r => if p (f c) then .data ⟨i.mode, r⟩ (f c)
          else .error i.buf (Err.unexpected v), w) := by
  obtain ⟨m, b⟩ := i
  cases b with
  | nil => rfl
  | cons c r =>
    simp only [satisfyWith]
    split <;> rfl

theorem token_eq [DecidableEq I] (v : Bool) (t : I) (i : Input I) (w : σ) :
    token v t i w = .ok (match i.buf with
      | [] => .incomplete 1
      | c :: r => if t = c then .data ⟨i.mode, r⟩ c else .error i.buf (Err.expected v t), w) := by
  obtain ⟨m, b⟩ := i
  cases b with
  | nil => rfl
  | cons c r =>
    simp only [token]
    split <;> rfl

theorem notToken_eq [DecidableEq I] (v : Bool) (t : I) (i : Input I) (w : σ) :
    notToken v t i w = .ok (match i.buf with
      | [] => .incomplete 1
      | c :: r => if t = c then .error i.buf (Err.unexpected v) else .data ⟨i.mode, r⟩ c, w) := by
  obtain ⟨m, b⟩ := i
  cases b with
  | nil => rfl
  | cons c r =>
    by_cases h : t = c
    · subst h; simp [notToken, Input.err]
    · simp only [notToken, if_pos (show t ≠ c from h), if_neg h]; rfl

theorem peek_eq (i : Input I) (w : σ) : peek i w = .ok (.data i i.buf.head?, w) := rfl

theorem peekNext_eq (i : Input I) (w : σ) :
    peekNext i w = .ok (match i.buf with
      | [] => .incomplete 1
      | c :: _ => .data i c, w) := by
  obtain ⟨m, b⟩ := i
  cases b <;> rfl

theorem take_eq (num : Nat) (i : Input I) (w : σ) :
    take num i w = .ok (if num ≤ i.buf.length then .data ⟨i.mode, i.buf.drop num⟩ (i.buf.take num)
      else .incomplete (num - i.buf.length), w) := by
  unfold take
  by_cases h : num ≤ i.buf.length
  · simp only [h, if_true]
    rw [M.bind_ok (sliceFrom_ok h w), M.bind_ok (sliceTo_ok h w)]; rfl
  · simp only [h, if_false]
    rw [usub_ok (by omega), M.bind_ok (M.lift_ok _ w)]; rfl

theorem takeWhile_eq (f : I → Bool) (i : Input I) (w : σ) :
    takeWhile f i w = .ok (if i.mode = .default ∧ i.buf.all f then .incomplete 1
      else .data ⟨i.mode, i.buf.dropWhile f⟩ (i.buf.takeWhile f), w) := by
  obtain ⟨m, b⟩ := i
  unfold takeWhile
  simp only [position_eq]
  have e : (fun c => !(f c == false)) = f := by funext c; cases f c <;> rfl
  rw [e]
  by_cases h : b.all f
  · simp only [h, if_true]
    cases m
    · simp [Input.isLastSlice, Input.incomplete]
    · have hl : Input.isLastSlice (⟨.endOfInput, b⟩ : Input I) = true := rfl
      rw [if_pos hl, M.bind_ok (sliceTo_ok (Nat.zero_le _) w)]
      have h1 : b.takeWhile f = b := by
        exact takeWhile_of_all h
      have h2 : b.dropWhile f = [] := by
        exact dropWhile_of_all h
      simp [Input.replace, Input.ret, h1, h2]
  · simp only [h]
    simp only [Bool.false_eq_true, if_false, and_false]
    rw [M.bind_ok (sliceFrom_ok (takeWhile_length_le f b) w),
      M.bind_ok (sliceTo_ok (takeWhile_length_le f b) w)]
    simp [Input.replace, Input.ret, take_takeWhile_length, drop_takeWhile_length]

theorem takeWhile1_eq (v : Bool) (f : I → Bool) (i : Input I) (w : σ) :
    takeWhile1 v f i w = .ok (match i.buf with
      | [] => .incomplete 1
      | c :: _ =>
        if f c = false then .error i.buf (Err.unexpected v)
        else if i.mode = .default ∧ i.buf.all f then .incomplete 1
        else .data ⟨i.mode, i.buf.dropWhile f⟩ (i.buf.takeWhile f), w) := by
  obtain ⟨m, b⟩ := i
  unfold takeWhile1
  simp only [position_eq]
  have e : (fun c => !(f c == false)) = f := by funext c; cases f c <;> rfl
  rw [e]
  cases b with
  | nil => simp [Input.incomplete]
  | cons c r =>
    by_cases hc : f c
    · simp only [hc, Bool.true_eq_false, if_false]
      by_cases h : (c :: r).all f
      · simp only [h, if_true]
        cases m
        · simp [Input.isLastSlice, Input.incomplete]
        · have hl : (decide ((c :: r).length > 0) &&
              Input.isLastSlice (⟨.endOfInput, c :: r⟩ : Input I)) = true := by
            simp [Input.isLastSlice]
          have h1 : (c :: r).takeWhile f = c :: r := by
            exact takeWhile_of_all h
          have h2 : (c :: r).dropWhile f = [] := by
            exact dropWhile_of_all h
          rw [if_pos hl, M.bind_ok (sliceTo_ok (Nat.zero_le _) w)]
          simp [Input.replace, Input.ret, h1, h2]
      · have hl : ((c :: r).takeWhile f).length = (r.takeWhile f).length + 1 := by
          simp [hc]
        simp only [h, Bool.false_eq_true, if_false, and_false, hl]
        rw [M.bind_ok (sliceFrom_ok (by rw [← hl]; exact takeWhile_length_le f _) w),
          M.bind_ok (sliceTo_ok (by rw [← hl]; exact takeWhile_length_le f _) w)]
        rw [← hl, take_takeWhile_length, drop_takeWhile_length]
        simp [Input.replace, Input.ret]
    · simp only [Bool.not_eq_true] at hc
      simp [hc, Input.err]

theorem takeTill_eq (f : I → Bool) (i : Input I) (w : σ) :
    takeTill f i w = .ok (if i.buf.any f then
        .data ⟨i.mode, i.buf.dropWhile (fun c => !f c)⟩ (i.buf.takeWhile (fun c => !f c))
      else .incomplete 1, w) := by
  obtain ⟨m, b⟩ := i
  unfold takeTill
  simp only [position_eq]
  have e : b.any f = !b.all (fun c => !f c) := by
    rw [List.any_eq_not_all_not]
  rw [e]
  by_cases h : b.all (fun c => !f c)
  · simp [h, Input.incomplete]
  · simp only [h]
    simp only [Bool.false_eq_true, if_false, Bool.not_false, if_true]
    rw [M.bind_ok (sliceFrom_ok (takeWhile_length_le _ b) w),
      M.bind_ok (sliceTo_ok (takeWhile_length_le _ b) w)]
    simp [Input.replace, Input.ret, take_takeWhile_length, drop_takeWhile_length]

theorem takeRemainder_eq (i : Input I) (w : σ) :
    takeRemainder i w = .ok (.data ⟨i.mode, []⟩ i.buf, w) := by
  unfold takeRemainder
  rw [M.bind_ok (sliceTo_ok (Nat.zero_le _) w)]; rfl

theorem eof_eq (v : Bool) (i : Input I) (w : σ) :
    eof v i w = .ok (if i.buf = [] ∧ i.mode = .endOfInput then .data i ()
      else .error i.buf (Err.unexpected v), w) := by
  obtain ⟨m, b⟩ := i
  cases b <;> cases m <;> simp [eof, Input.isLastSlice, Input.ret, Input.err]

/-! ### scan -/

theorem scan_cases (f : S → I → Option S) (b : List I) : ∀ s,
    (∃ s', b.foldlM f s = some s') ∨
    ∃ x c y s', b = x ++ c :: y ∧ x.foldlM f s = some s' ∧ f s' c = none := by
  induction b with
  | nil => intro s; left; exact ⟨s, rfl⟩
  | cons c cs ih =>
    intro s
    cases h : f s c with
    | none => right; exact ⟨[], c, cs, s, rfl, rfl, h⟩
    | some s1 =>
      rcases ih s1 with ⟨s', h'⟩ | ⟨x, c', y, s', hb, hx, hc⟩
      · left; exact ⟨s', by simp [List.foldlM_cons, h, h']⟩
      · right
        exact ⟨c :: x, c', y, s', by simp [hb], by simp [List.foldlM_cons, h, hx], hc⟩

theorem runScannerPosition_stop {f : S → I → Option S} {c : I} {y : List I} (x : List I) :
    ∀ {s s'}, x.foldlM f s = some s' → f s' c = none →
      runScannerPosition f s (x ++ c :: y) = (some x.length, s') := by
  induction x with
  | nil => intro s s' h hc; cases h; simp [runScannerPosition, hc]
  | cons a x ih =>
    intro s s' h hc
    cases ha : f s a with
    | none => simp [List.foldlM_cons, ha] at h
    | some s1 =>
      simp only [List.foldlM_cons, ha] at h
      simp [runScannerPosition, ha, ih h hc]

theorem runScannerPosition_none {f : S → I → Option S} (b : List I) :
    ∀ {s s'}, b.foldlM f s = some s' → runScannerPosition f s b = (none, s') := by
  induction b with
  | nil => intro s s' h; cases h; rfl
  | cons a x ih =>
    intro s s' h
    cases ha : f s a with
    | none => simp [List.foldlM_cons, ha] at h
    | some s1 =>
      simp only [List.foldlM_cons, ha] at h
      simp [runScannerPosition, ha, ih h]

theorem scanPosition_stop {f : S → I → Option S} {c : I} {y : List I} (w : σ) (x : List I) :
    ∀ {s s'}, x.foldlM f s = some s' → f s' c = none →
      scanPosition f (some s) (x ++ c :: y) w = .ok (some x.length, w) := by
  induction x with
  | nil => intro s s' h hc; cases h; simp [scanPosition, hc]
  | cons a x ih =>
    intro s s' h hc
    cases ha : f s a with
    | none => simp [List.foldlM_cons, ha] at h
    | some s1 =>
      simp only [List.foldlM_cons, ha] at h
      simp only [List.cons_append, scanPosition, ha, Option.isNone_some, Bool.false_eq_true,
        if_false]
      rw [M.bind_ok (ih h hc)]; simp

theorem scanPosition_none {f : S → I → Option S} (w : σ) (b : List I) :
    ∀ {s s'}, b.foldlM f s = some s' → scanPosition f (some s) b w = .ok (none, w) := by
  induction b with
  | nil => intro s s' h; rfl
  | cons a x ih =>
    intro s s' h
    cases ha : f s a with
    | none => simp [List.foldlM_cons, ha] at h
    | some s1 =>
      simp only [List.foldlM_cons, ha] at h
      simp only [scanPosition, ha, Option.isNone_some, Bool.false_eq_true, if_false]
      rw [M.bind_ok (ih h)]; simp

theorem scan_stop {f : S → I → Option S} {s s' : S} {m : Mode} {x y : List I} {c : I} (w : σ)
    (h : x.foldlM f s = some s') (hc : f s' c = none) :
    scan s f ⟨m, x ++ c :: y⟩ w = .ok (.data ⟨m, c :: y⟩ x, w) := by
  unfold scan
  dsimp only
  rw [M.bind_ok (scanPosition_stop w x h hc)]
  dsimp only
  rw [M.bind_ok (sliceFrom_ok (by simp) w), M.bind_ok (sliceTo_ok (by simp) w)]
  simp [Input.replace, Input.ret]

theorem scan_none {f : S → I → Option S} {s s' : S} {m : Mode} {b : List I} (w : σ)
    (h : b.foldlM f s = some s') : scan s f ⟨m, b⟩ w = .ok (.incomplete 1, w) := by
  unfold scan
  dsimp only
  rw [M.bind_ok (scanPosition_none w b h)]
  rfl

theorem runScanner_stop {f : S → I → Option S} {s s' : S} {m : Mode} {x y : List I} {c : I}
    (w : σ) (h : x.foldlM f s = some s') (hc : f s' c = none) :
    runScanner s f ⟨m, x ++ c :: y⟩ w = .ok (.data ⟨m, c :: y⟩ (x, s'), w) := by
  unfold runScanner
  dsimp only
  rw [runScannerPosition_stop x h hc]
  dsimp only
  rw [M.bind_ok (sliceFrom_ok (by simp) w), M.bind_ok (sliceTo_ok (by simp) w)]
  simp [Input.replace, Input.ret]

theorem runScanner_none {f : S → I → Option S} {s s' : S} {m : Mode} {b : List I} (w : σ)
    (h : b.foldlM f s = some s') : runScanner s f ⟨m, b⟩ w = .ok (.incomplete 1, w) := by
  unfold runScanner
  dsimp only
  rw [runScannerPosition_none b h]
  rfl

/-! ### string -/

theorem mismatch_none [DecidableEq I] : ∀ {s d : List I}, s.length = d.length →
    (mismatch s d = none ↔ s = d)
  | [], [], _ => by simp [mismatch]
  | a :: s, c :: d, h => by
    have ih := mismatch_none (s := s) (d := d) (by simpa using h)
    by_cases e : a = c
    · simp [mismatch, e, ih]
    · simp [mismatch, e]

theorem mismatch_some [DecidableEq I] : ∀ {s d : List I} {j : Nat}, s.length = d.length →
    mismatch s d = some j →
    ∃ x a c s' d', s = x ++ a :: s' ∧ d = x ++ c :: d' ∧ a ≠ c ∧ x.length = j
  | [], [], _, _, h => by simp [mismatch] at h
  | a :: s, c :: d, j, hl, h => by
    by_cases e : a = c
    · simp only [mismatch, e, ne_eq, not_true_eq_false, if_false, Option.map_eq_some_iff] at h
      obtain ⟨k, hk, rfl⟩ := h
      obtain ⟨x, a', c', s', d', hs, hd, hn, hx⟩ :=
        mismatch_some (s := s) (d := d) (by simpa using hl) hk
      exact ⟨c :: x, a', c', s', d', by simp [e, hs], by simp [hd], hn, by simp [hx]⟩
    · simp only [mismatch, ne_eq, e, not_false_eq_true, if_true, Option.some.injEq] at h
      exact ⟨[], a, c, s, d, rfl, rfl, e, h⟩

theorem mismatch_split [DecidableEq I] {a c : I} (h : a ≠ c) (s d : List I) : ∀ (x : List I),
    mismatch (x ++ a :: s) (x ++ c :: d) = some x.length
  | [] => by simp [mismatch, h]
  | b :: x => by simp [mismatch, mismatch_split h s d x]

theorem string_short [DecidableEq I] {v : Bool} {s : List I} {i : Input I} (w : σ)
    (h : i.buf.length < s.length) :
    string v s i w = .ok (.incomplete (s.length - i.buf.length), w) := by
  unfold string
  simp only [gt_iff_lt, h, if_true]
  rw [usub_ok (by omega), M.bind_ok (M.lift_ok _ w)]; rfl

theorem string_match [DecidableEq I] {v : Bool} {s r : List I} {m : Mode} (w : σ) :
    string v s ⟨m, s ++ r⟩ w = .ok (.data ⟨m, r⟩ s, w) := by
  unfold string
  have h : ¬ (s.length > (s ++ r).length) := by simp
  simp only [h, if_false]
  rw [M.bind_ok (sliceTo_ok (by simp) w)]
  have : mismatch s (List.take s.length (s ++ r)) = none := by
    rw [mismatch_none (by simp)]; simp
  simp only [this]
  rw [M.bind_ok (sliceFrom_ok (by simp) w)]
  simp [Input.replace, Input.ret]

theorem string_mismatch [DecidableEq I] {v : Bool} {x s r : List I} {a c : I} {m : Mode} (w : σ)
    (h : a ≠ c) (hl : s.length ≤ r.length) :
    string v (x ++ a :: s) ⟨m, x ++ c :: r⟩ w =
      .ok (.error (if v then x ++ c :: r else c :: r)
        (if v then .string (x ++ a :: s) else .generic), w) := by
  unfold string
  have h1 : ¬ ((x ++ a :: s).length > (x ++ c :: r).length) := by simp; omega
  simp only [h1, if_false]
  rw [M.bind_ok (sliceTo_ok (by simp; omega) w)]
  have : mismatch (x ++ a :: s) (List.take (x ++ a :: s).length (x ++ c :: r))
      = some x.length := by
    have : List.take (x ++ a :: s).length (x ++ c :: r) = x ++ c :: r.take s.length := by
      simp [List.take_append, List.take_of_length_le]
    rw [this]; exact mismatch_split h _ _ _
  simp only [this]
  cases v
  · simp only [Err.string, Bool.false_eq_true, if_false]
    rw [M.bind_ok (sliceFrom_ok (by simp) w)]
    simp [Input.replace, Input.err]
  · simp [Err.string, Input.err]

theorem string_cases [DecidableEq I] (s b : List I) :
    b.length < s.length ∨ (∃ r, b = s ++ r) ∨
    ∃ x a c s' r, s = x ++ a :: s' ∧ b = x ++ c :: r ∧ a ≠ c ∧ s'.length ≤ r.length := by
  by_cases hl : b.length < s.length
  · exact .inl hl
  right
  have hlen : s.length = (b.take s.length).length := by simp; omega
  cases h : mismatch s (b.take s.length) with
  | none =>
    left
    rw [mismatch_none hlen] at h
    refine ⟨b.drop s.length, ?_⟩
    have := List.take_append_drop s.length b
    rw [← h] at this
    exact this.symm
  | some j =>
    right
    obtain ⟨x, a, c, s', d', hs, hd, hn, _⟩ := mismatch_some hlen h
    have hb : b = x ++ c :: (d' ++ b.drop s.length) := by
      have := List.take_append_drop s.length b
      rw [hd] at this
      simpa using this.symm
    refine ⟨x, a, c, s', d' ++ b.drop s.length, hs, hb, hn, ?_⟩
    have : b.length = (x ++ c :: (d' ++ b.drop s.length)).length := congrArg _ hb
    simp at this
    have : s.length = (x ++ a :: s').length := congrArg _ hs
    simp at this
    simp
    omega

end Parsers

end Chomp
