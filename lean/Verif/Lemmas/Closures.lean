import Verif.Model.Closures
import Verif.Spec.Closures
import Verif.Lemmas.Basic

namespace Chomp.Closures

open Spec

theorem res_bind (a : Abrupt) (f : α → Res β) : (a.res >>= f) = a.res := by cases a <;> rfl

theorem res_ne (a : Abrupt) (x : α) : (a.res : Res α) ≠ .ok x := by cases a <;> simp [Abrupt.res]

theorem res_inj {a a' : Abrupt} (h : (a.res : Res α) = a'.res) : a = a' := by
  cases a <;> cases a' <;> first | rfl | (simp [Abrupt.res] at h)

theorem res_cases (x : Res α) : (∃ y, x = .ok y) ∨ ∃ a : Abrupt, x = a.res := by
  cases x with
  | ok y => exact .inl ⟨y, rfl⟩
  | panic => exact .inr ⟨.panic, rfl⟩
  | ub => exact .inr ⟨.ub, rfl⟩
  | div => exact .inr ⟨.div, rfl⟩

theorem says_not {f : I → M σ Bool} {ans : Bool} {b : List I} {w w' : σ} :
    Says (fun c => do let a ← f c; pure (a == false)) ans b w w' ↔ Says f (!ans) b w w' := by
  constructor
  · intro h
    induction h with
    | nil => exact .nil
    | @cons c cs w w1 w' h _ ih =>
      refine .cons ?_ ih
      rw [M.bind_apply] at h
      rcases res_cases (f c w) with ⟨⟨x, w2⟩, hx⟩ | ⟨a, ha⟩
      · rw [hx] at h
        simp only [Res.bind_ok, M.pure_apply, Res.ok.injEq, Prod.mk.injEq] at h
        rw [hx]
        obtain ⟨h1, h2⟩ := h
        subst h2
        rw [← h1]
        cases x <;> rfl
      · rw [ha, res_bind] at h; exact absurd h (res_ne _ _)
  · intro h
    induction h with
    | nil => exact .nil
    | @cons c cs w w1 w' h _ ih =>
      refine .cons ?_ ih
      rw [M.bind_apply, h]
      cases ans <;> rfl

theorem position_none {f : I → M σ Bool} {b : List I} {w w' : σ} (h : Says f false b w w') :
    position f b w = .ok (none, w') := by
  induction h with
  | nil => rfl
  | cons h _ ih =>
    rw [position, M.bind_ok h]
    simp only [Bool.false_eq_true, if_false]
    rw [M.bind_ok ih]
    rfl

theorem position_some {f : I → M σ Bool} {pre rest : List I} {c : I} {w w1 w' : σ}
    (h : Says f false pre w w1) (hc : f c w1 = .ok (true, w')) :
    position f (pre ++ c :: rest) w = .ok (some pre.length, w') := by
  induction h with
  | nil =>
    rw [List.nil_append, position, M.bind_ok hc]
    rfl
  | cons h _ ih =>
    rw [List.cons_append, position, M.bind_ok h]
    simp only [Bool.false_eq_true, if_false]
    rw [M.bind_ok (ih hc)]
    rfl

theorem position_abrupt {f : I → M σ Bool} {pre rest : List I} {c : I} {w w1 : σ} {a : Abrupt}
    (h : Says f false pre w w1) (hc : f c w1 = a.res) :
    position f (pre ++ c :: rest) w = a.res := by
  induction h with
  | nil =>
    rw [List.nil_append, position, M.bind_apply, hc, res_bind]
  | cons h _ ih =>
    rw [List.cons_append, position, M.bind_ok h]
    simp only [Bool.false_eq_true, if_false]
    rw [M.bind_apply, ih hc, res_bind]

theorem says_cases (f : I → M σ Bool) (ans : Bool) (b : List I) (w : σ) :
    (∃ w', Says f ans b w w') ∨
    (∃ pre c rest w1 w', b = pre ++ c :: rest ∧ Says f ans pre w w1 ∧ f c w1 = .ok (!ans, w')) ∨
    (∃ a : Abrupt, ∃ pre c rest w1, b = pre ++ c :: rest ∧ Says f ans pre w w1 ∧ f c w1 = a.res) := by
  induction b generalizing w with
  | nil => exact .inl ⟨w, .nil⟩
  | cons c cs ih =>
    rcases res_cases (f c w) with ⟨⟨x, w1⟩, hx⟩ | ⟨a, ha⟩
    · by_cases hxa : x = ans
      · subst hxa
        rcases ih w1 with ⟨w', h⟩ | ⟨pre, d, rest, w2, w', hb, h, hd⟩ | ⟨a, pre, d, rest, w2, hb, h, hd⟩
        · exact .inl ⟨w', .cons hx h⟩
        · exact .inr (.inl ⟨c :: pre, d, rest, w2, w', by rw [hb]; rfl, .cons hx h, hd⟩)
        · exact .inr (.inr ⟨a, c :: pre, d, rest, w2, by rw [hb]; rfl, .cons hx h, hd⟩)
      · refine .inr (.inl ⟨[], c, cs, w, w1, rfl, .nil, ?_⟩)
        rw [hx]
        cases x <;> cases ans <;> simp_all
    · exact .inr (.inr ⟨a, [], c, cs, w, rfl, .nil, ha⟩)

/-! ### scanning -/

theorem scan_none {f : S → I → M σ (Option S)} {s s' : S} {b : List I} {w w' : σ}
    (h : Walks f s b w s' w') : scanPosition f (some s) b w = .ok (none, w') := by
  induction h with
  | nil => rfl
  | cons h _ ih =>
    rw [scanPosition, M.bind_ok h]
    simp only [Option.isNone_some, Bool.false_eq_true, if_false]
    rw [M.bind_ok ih]
    rfl

theorem scan_some {f : S → I → M σ (Option S)} {s s1 : S} {pre rest : List I} {c : I} {w w1 w' : σ}
    (h : Walks f s pre w s1 w1) (hc : f s1 c w1 = .ok (none, w')) :
    scanPosition f (some s) (pre ++ c :: rest) w = .ok (some pre.length, w') := by
  induction h with
  | nil =>
    rw [List.nil_append, scanPosition, M.bind_ok hc]
    rfl
  | cons h _ ih =>
    rw [List.cons_append, scanPosition, M.bind_ok h]
    simp only [Option.isNone_some, Bool.false_eq_true, if_false]
    rw [M.bind_ok (ih hc)]
    rfl

theorem scan_abrupt {f : S → I → M σ (Option S)} {s s1 : S} {pre rest : List I} {c : I} {w w1 : σ}
    {a : Abrupt} (h : Walks f s pre w s1 w1) (hc : f s1 c w1 = a.res) :
    scanPosition f (some s) (pre ++ c :: rest) w = a.res := by
  induction h with
  | nil =>
    rw [List.nil_append, scanPosition, M.bind_apply, hc, res_bind]
  | cons h _ ih =>
    rw [List.cons_append, scanPosition, M.bind_ok h]
    simp only [Option.isNone_some, Bool.false_eq_true, if_false]
    rw [M.bind_apply, ih hc, res_bind]

theorem run_none {f : S → I → M σ (Option S)} {s s' : S} {b : List I} {w w' : σ}
    (h : Walks f s b w s' w') : runScannerPosition f s b w = .ok ((none, s'), w') := by
  induction h with
  | nil => rfl
  | cons h _ ih =>
    rw [runScannerPosition, M.bind_ok h]
    dsimp only
    rw [M.bind_ok ih]
    rfl

theorem run_some {f : S → I → M σ (Option S)} {s s1 : S} {pre rest : List I} {c : I} {w w1 w' : σ}
    (h : Walks f s pre w s1 w1) (hc : f s1 c w1 = .ok (none, w')) :
    runScannerPosition f s (pre ++ c :: rest) w = .ok ((some pre.length, s1), w') := by
  induction h with
  | nil =>
    rw [List.nil_append, runScannerPosition, M.bind_ok hc]
    rfl
  | cons h _ ih =>
    rw [List.cons_append, runScannerPosition, M.bind_ok h]
    dsimp only
    rw [M.bind_ok (ih hc)]
    rfl

theorem run_abrupt {f : S → I → M σ (Option S)} {s s1 : S} {pre rest : List I} {c : I} {w w1 : σ}
    {a : Abrupt} (h : Walks f s pre w s1 w1) (hc : f s1 c w1 = a.res) :
    runScannerPosition f s (pre ++ c :: rest) w = a.res := by
  induction h with
  | nil =>
    rw [List.nil_append, runScannerPosition, M.bind_apply, hc, res_bind]
  | cons h _ ih =>
    rw [List.cons_append, runScannerPosition, M.bind_ok h]
    dsimp only
    rw [M.bind_apply, ih hc, res_bind]

theorem walks_cases (f : S → I → M σ (Option S)) (s : S) (b : List I) (w : σ) :
    (∃ s' w', Walks f s b w s' w') ∨
    (∃ pre c rest s1 w1 w', b = pre ++ c :: rest ∧ Walks f s pre w s1 w1 ∧
      f s1 c w1 = .ok (none, w')) ∨
    (∃ a : Abrupt, ∃ pre c rest s1 w1, b = pre ++ c :: rest ∧ Walks f s pre w s1 w1 ∧
      f s1 c w1 = a.res) := by
  induction b generalizing s w with
  | nil => exact .inl ⟨s, w, .nil⟩
  | cons c cs ih =>
    rcases res_cases (f s c w) with ⟨⟨x, w1⟩, hx⟩ | ⟨a, ha⟩
    · cases x with
      | some s1 =>
        rcases ih s1 w1 with ⟨s', w', h⟩ | ⟨pre, d, rest, s2, w2, w', hb, h, hd⟩ |
          ⟨a, pre, d, rest, s2, w2, hb, h, hd⟩
        · exact .inl ⟨s', w', .cons hx h⟩
        · exact .inr (.inl ⟨c :: pre, d, rest, s2, w2, w', by rw [hb]; rfl, .cons hx h, hd⟩)
        · exact .inr (.inr ⟨a, c :: pre, d, rest, s2, w2, by rw [hb]; rfl, .cons hx h, hd⟩)
      | none => exact .inr (.inl ⟨[], c, cs, s, w, w1, rfl, .nil, hx⟩)
    · exact .inr (.inr ⟨a, [], c, cs, s, w, rfl, .nil, ha⟩)

/-! ### outcomes of the parsers -/

theorem takeTill_none {f : I → M σ Bool} {i : Input I} {w w' : σ} (h : Says f false i.buf w w') :
    takeTill f i w = .ok (.incomplete 1, w') := by
  unfold takeTill
  rw [M.bind_ok (position_none h)]
  rfl

theorem takeTill_some {f : I → M σ Bool} {i : Input I} {pre rest : List I} {c : I} {w w1 w' : σ}
    (hb : i.buf = pre ++ c :: rest) (h : Says f false pre w w1) (hc : f c w1 = .ok (true, w')) :
    takeTill f i w = .ok (.data ⟨i.mode, c :: rest⟩ pre, w') := by
  unfold takeTill
  rw [hb, M.bind_ok (position_some h hc)]
  dsimp only
  rw [M.bind_ok (sliceFrom_ok (by simp) _), M.bind_ok (sliceTo_ok (by simp) _)]
  simp [Input.replace, Input.ret]

theorem takeTill_abrupt {f : I → M σ Bool} {i : Input I} {pre rest : List I} {c : I} {w w1 : σ}
    {a : Abrupt} (hb : i.buf = pre ++ c :: rest) (h : Says f false pre w w1) (hc : f c w1 = a.res) :
    takeTill f i w = a.res := by
  unfold takeTill
  rw [hb, M.bind_apply, position_abrupt h hc, res_bind]

theorem not_ok {f : I → M σ Bool} {c : I} {w w' : σ} {x : Bool} (h : f c w = .ok (x, w')) :
    (do let a ← f c; pure (a == false) : M σ Bool) w = .ok (!x, w') := by
  rw [M.bind_ok h]
  cases x <;> rfl

theorem not_abrupt {f : I → M σ Bool} {c : I} {w : σ} {a : Abrupt} (h : f c w = a.res) :
    (do let a ← f c; pure (a == false) : M σ Bool) w = a.res := by
  rw [M.bind_apply, h, res_bind]

theorem takeWhile_none {f : I → M σ Bool} {i : Input I} {w w' : σ} (h : Says f true i.buf w w') :
    takeWhile f i w = .ok (match i.mode with
      | .default => .incomplete 1
      | .endOfInput => .data ⟨.endOfInput, []⟩ i.buf, w') := by
  unfold takeWhile
  rw [M.bind_ok (position_none (says_not.2 h))]
  obtain ⟨m, b⟩ := i
  cases m with
  | default => rfl
  | endOfInput =>
    refine (M.bind_ok (sliceTo_ok (by simp) _)).trans ?_
    simp [Input.replace, Input.ret]

theorem takeWhile_some {f : I → M σ Bool} {i : Input I} {pre rest : List I} {c : I} {w w1 w' : σ}
    (hb : i.buf = pre ++ c :: rest) (h : Says f true pre w w1) (hc : f c w1 = .ok (false, w')) :
    takeWhile f i w = .ok (.data ⟨i.mode, c :: rest⟩ pre, w') := by
  unfold takeWhile
  rw [hb, M.bind_ok (position_some (says_not.2 h) (not_ok hc))]
  dsimp only
  rw [M.bind_ok (sliceFrom_ok (by simp) _), M.bind_ok (sliceTo_ok (by simp) _)]
  simp [Input.replace, Input.ret]

theorem takeWhile_abrupt {f : I → M σ Bool} {i : Input I} {pre rest : List I} {c : I} {w w1 : σ}
    {a : Abrupt} (hb : i.buf = pre ++ c :: rest) (h : Says f true pre w w1) (hc : f c w1 = a.res) :
    takeWhile f i w = a.res := by
  unfold takeWhile
  rw [hb, M.bind_apply, position_abrupt (says_not.2 h) (not_abrupt hc), res_bind]

theorem takeWhile1_none {v : Bool} {f : I → M σ Bool} {i : Input I} {w w' : σ}
    (h : Says f true i.buf w w') :
    takeWhile1 v f i w = .ok (if i.mode = .endOfInput ∧ i.buf ≠ [] then
      .data ⟨.endOfInput, []⟩ i.buf else .incomplete 1, w') := by
  unfold takeWhile1
  rw [M.bind_ok (position_none (says_not.2 h))]
  obtain ⟨m, b⟩ := i
  cases m with
  | default => simp [Input.isLastSlice, Input.incomplete]
  | endOfInput =>
    cases b with
    | nil => rfl
    | cons c r =>
      refine (M.bind_ok (sliceTo_ok (by simp) _)).trans ?_
      simp [Input.replace, Input.ret]

theorem takeWhile1_some {v : Bool} {f : I → M σ Bool} {i : Input I} {pre rest : List I} {c : I}
    {w w1 w' : σ} (hb : i.buf = pre ++ c :: rest) (h : Says f true pre w w1)
    (hc : f c w1 = .ok (false, w')) :
    takeWhile1 v f i w = .ok (if pre = [] then .error i.buf (Err.unexpected v)
      else .data ⟨i.mode, c :: rest⟩ pre, w') := by
  unfold takeWhile1
  cases pre with
  | nil =>
    simp only [hb]
    rw [M.bind_ok (position_some (says_not.2 h) (not_ok hc))]
    simp [Input.err, hb]
  | cons d pre =>
    simp only [hb]
    rw [M.bind_ok (position_some (says_not.2 h) (not_ok hc))]
    refine (M.bind_ok (sliceFrom_ok (by simp) _)).trans ?_
    rw [M.bind_ok (sliceTo_ok (by simp) _)]
    simp [Input.replace, Input.ret]

theorem takeWhile1_abrupt {v : Bool} {f : I → M σ Bool} {i : Input I} {pre rest : List I} {c : I}
    {w w1 : σ} {a : Abrupt} (hb : i.buf = pre ++ c :: rest) (h : Says f true pre w w1)
    (hc : f c w1 = a.res) : takeWhile1 v f i w = a.res := by
  unfold takeWhile1
  rw [hb, M.bind_apply, position_abrupt (says_not.2 h) (not_abrupt hc), res_bind]

theorem scan_data_none {f : S → I → M σ (Option S)} {s s' : S} {i : Input I} {w w' : σ}
    (h : Walks f s i.buf w s' w') : scan s f i w = .ok (.incomplete 1, w') := by
  unfold scan
  rw [M.bind_ok (scan_none h)]
  rfl

theorem scan_data_some {f : S → I → M σ (Option S)} {s s1 : S} {i : Input I} {pre rest : List I} {c : I}
    {w w1 w' : σ} (hb : i.buf = pre ++ c :: rest) (h : Walks f s pre w s1 w1)
    (hc : f s1 c w1 = .ok (none, w')) :
    scan s f i w = .ok (.data ⟨i.mode, c :: rest⟩ pre, w') := by
  unfold scan
  rw [hb, M.bind_ok (scan_some h hc)]
  dsimp only
  rw [M.bind_ok (sliceFrom_ok (by simp) _), M.bind_ok (sliceTo_ok (by simp) _)]
  simp [Input.replace, Input.ret]

theorem scan_data_abrupt {f : S → I → M σ (Option S)} {s s1 : S} {i : Input I} {pre rest : List I}
    {c : I} {w w1 : σ} {a : Abrupt} (hb : i.buf = pre ++ c :: rest) (h : Walks f s pre w s1 w1)
    (hc : f s1 c w1 = a.res) : scan s f i w = a.res := by
  unfold scan
  rw [hb, M.bind_apply, scan_abrupt h hc, res_bind]

theorem run_data_none {f : S → I → M σ (Option S)} {s s' : S} {i : Input I} {w w' : σ}
    (h : Walks f s i.buf w s' w') : runScanner s f i w = .ok (.incomplete 1, w') := by
  unfold runScanner
  rw [M.bind_ok (run_none h)]
  rfl

theorem run_data_some {f : S → I → M σ (Option S)} {s s1 : S} {i : Input I} {pre rest : List I} {c : I}
    {w w1 w' : σ} (hb : i.buf = pre ++ c :: rest) (h : Walks f s pre w s1 w1)
    (hc : f s1 c w1 = .ok (none, w')) :
    runScanner s f i w = .ok (.data ⟨i.mode, c :: rest⟩ (pre, s1), w') := by
  unfold runScanner
  rw [hb, M.bind_ok (run_some h hc)]
  dsimp only
  rw [M.bind_ok (sliceFrom_ok (by simp) _), M.bind_ok (sliceTo_ok (by simp) _)]
  simp [Input.replace, Input.ret]

theorem run_data_abrupt {f : S → I → M σ (Option S)} {s s1 : S} {i : Input I} {pre rest : List I}
    {c : I} {w w1 : σ} {a : Abrupt} (hb : i.buf = pre ++ c :: rest) (h : Walks f s pre w s1 w1)
    (hc : f s1 c w1 = a.res) : runScanner s f i w = a.res := by
  unfold runScanner
  rw [hb, M.bind_apply, run_abrupt h hc, res_bind]

/-! ### pure closures -/

theorem position_pure (f : I → Bool) (b : List I) (w : σ) :
    position (fun c => pure (f c)) b w = .ok (Parsers.position f b, w) := by
  induction b with
  | nil => rfl
  | cons c cs ih =>
    rw [position, M.bind_ok (M.pure_apply _ _), Parsers.position]
    cases f c with
    | true => rfl
    | false =>
      simp only [Bool.false_eq_true, if_false]
      rw [M.bind_ok ih]
      rfl

theorem scan_pure (f : S → I → Option S) (s : Option S) (b : List I) :
    scanPosition (σ := σ) (fun s c => pure (f s c)) s b = Parsers.scanPosition f s b := by
  induction b generalizing s with
  | nil => cases s <;> rfl
  | cons c cs ih =>
    cases s with
    | none => rfl
    | some s => rw [scanPosition, pure_bind, Parsers.scanPosition, ih]

theorem run_pure (f : S → I → Option S) (s : S) (b : List I) (w : σ) :
    runScannerPosition (fun s c => pure (f s c)) s b w =
      .ok (Parsers.runScannerPosition f s b, w) := by
  induction b generalizing s with
  | nil => rfl
  | cons c cs ih =>
    rw [runScannerPosition, M.bind_ok (M.pure_apply _ _), Parsers.runScannerPosition]
    cases f s c with
    | none => rfl
    | some v =>
      dsimp only
      rw [M.bind_ok (ih v)]
      rfl

theorem mismatch_none {ne : I → I → M σ Bool} {s d : List I} {w w' : σ} (hl : d.length = s.length)
    (h : Says (fun x => ne x.1 x.2) false (s.zip d) w w') : mismatch ne s d w = .ok (none, w') := by
  induction s generalizing d w with
  | nil => cases d <;> cases h <;> rfl
  | cons a s ih =>
    cases d with
    | nil => simp at hl
    | cons c d =>
      cases h with
      | cons h1 h2 =>
        rw [mismatch, M.bind_ok h1]
        simp only [Bool.false_eq_true, if_false]
        rw [M.bind_ok (ih (by simpa using hl) h2)]
        rfl

theorem mismatch_some {ne : I → I → M σ Bool} {s1 s2 d1 d2 : List I} {a c : I} {w w1 w' : σ}
    (hl : d1.length = s1.length) (h : Says (fun x => ne x.1 x.2) false (s1.zip d1) w w1)
    (hc : ne a c w1 = .ok (true, w')) :
    mismatch ne (s1 ++ a :: s2) (d1 ++ c :: d2) w = .ok (some s1.length, w') := by
  induction s1 generalizing d1 w with
  | nil =>
    cases d1 with
    | nil =>
      cases h
      rw [List.nil_append, List.nil_append, mismatch, M.bind_ok hc]
      rfl
    | cons => simp at hl
  | cons b s ih =>
    cases d1 with
    | nil => simp at hl
    | cons e d =>
      cases h with
      | cons h1 h2 =>
        rw [List.cons_append, List.cons_append, mismatch, M.bind_ok h1]
        simp only [Bool.false_eq_true, if_false]
        rw [M.bind_ok (ih (by simpa using hl) h2)]
        rfl

theorem mismatch_abrupt {ne : I → I → M σ Bool} {s1 s2 d1 d2 : List I} {a c : I} {w w1 : σ}
    {x : Abrupt} (hl : d1.length = s1.length) (h : Says (fun x => ne x.1 x.2) false (s1.zip d1) w w1)
    (hc : ne a c w1 = x.res) :
    mismatch ne (s1 ++ a :: s2) (d1 ++ c :: d2) w = x.res := by
  induction s1 generalizing d1 w with
  | nil =>
    cases d1 with
    | nil =>
      cases h
      rw [List.nil_append, List.nil_append, mismatch, M.bind_apply, hc, res_bind]
    | cons => simp at hl
  | cons b s ih =>
    cases d1 with
    | nil => simp at hl
    | cons e d =>
      cases h with
      | cons h1 h2 =>
        rw [List.cons_append, List.cons_append, mismatch, M.bind_ok h1]
        simp only [Bool.false_eq_true, if_false]
        rw [M.bind_apply, ih (by simpa using hl) h2, res_bind]

theorem mismatch_pure [DecidableEq I] (s d : List I) (w : σ) :
    mismatch (fun a c => pure (a != c)) s d w = .ok (Parsers.mismatch s d, w) := by
  induction s generalizing d with
  | nil => cases d <;> rfl
  | cons a s ih =>
    cases d with
    | nil => rfl
    | cons c d =>
      rw [mismatch, M.bind_ok (M.pure_apply _ _), Parsers.mismatch]
      by_cases h : a = c
      · simp only [h, bne_self_eq_false, Bool.false_eq_true, if_false, ne_eq, not_true_eq_false]
        rw [M.bind_ok (ih d)]
        rfl
      · simp [h]

/-! ### Pure closures -/

section
variable {σ I T S : Type}

theorem satisfy_pure (v : Bool) (f : I → Bool) :
    (Closures.satisfy v (fun c => pure (f c)) : Parser σ I I (Error I)) = Parsers.satisfy v f := by
  funext ⟨m, b⟩ w; cases b <;> rfl

theorem satisfyWith_pure (v : Bool) (g : I → T) (p : T → Bool) :
    (Closures.satisfyWith v (fun c => pure (g c)) (fun t => pure (p t)) : Parser σ I T (Error I)) =
      Parsers.satisfyWith v g p := by
  funext ⟨m, b⟩ w; cases b <;> rfl

theorem negated_pure (f : I → Bool) : (fun c => do let a ← (pure (f c) : M σ Bool); pure (a == false)) =
    (fun c => (pure (f c == false) : M σ Bool)) := by funext c; rfl

theorem takeWhile_pure (f : I → Bool) :
    (Closures.takeWhile (fun c => pure (f c)) : Parser σ I (List I) (Error I)) = Parsers.takeWhile f := by
  funext i w
  unfold Closures.takeWhile Parsers.takeWhile
  rw [negated_pure, M.bind_ok (Closures.position_pure _ _ _)]
  cases Parsers.position (fun c => f c == false) i.buf <;> rfl

theorem takeWhile1_pure (v : Bool) (f : I → Bool) :
    (Closures.takeWhile1 v (fun c => pure (f c)) : Parser σ I (List I) (Error I)) =
      Parsers.takeWhile1 v f := by
  funext i w
  unfold Closures.takeWhile1 Parsers.takeWhile1
  rw [negated_pure, M.bind_ok (Closures.position_pure _ _ _)]
  cases Parsers.position (fun c => f c == false) i.buf with
  | none => rfl
  | some n => cases n <;> rfl

theorem takeTill_pure (f : I → Bool) :
    (Closures.takeTill (fun c => pure (f c)) : Parser σ I (List I) (Error I)) = Parsers.takeTill f := by
  funext i w
  unfold Closures.takeTill Parsers.takeTill
  rw [M.bind_ok (Closures.position_pure _ _ _)]
  cases Parsers.position f i.buf <;> rfl

theorem scanner_pure (h : S → I → Option S) (s : S) :
    (Closures.scan s (fun s c => pure (h s c)) : Parser σ I (List I) (Error I)) = Parsers.scan s h := by
  funext i w
  unfold Closures.scan Parsers.scan
  rw [Closures.scan_pure, M.bind_apply, M.bind_apply]
  congr 1

theorem runScanner_pure (h : S → I → Option S) (s : S) :
    (Closures.runScanner s (fun s c => pure (h s c)) : Parser σ I (List I × S) (Error I)) =
      Parsers.runScanner s h := by
  funext i w
  unfold Closures.runScanner Parsers.runScanner
  rw [M.bind_ok (Closures.run_pure _ _ _ _)]
  rcases Parsers.runScannerPosition h s i.buf with ⟨r, s'⟩
  cases r <;> rfl

theorem token_pure [DecidableEq I] (v : Bool) (t : I) :
    (Closures.token (fun a c => pure (a == c)) v t : Parser σ I I (Error I)) = Parsers.token v t := by
  funext ⟨m, b⟩ w
  cases b with
  | nil => rfl
  | cons c r =>
    by_cases hc : t = c
    · simp [Closures.token, Parsers.token, hc]
    · simp [Closures.token, Parsers.token, hc]

theorem notToken_pure [DecidableEq I] (v : Bool) (t : I) :
    (Closures.notToken (fun a c => pure (a != c)) v t : Parser σ I I (Error I)) = Parsers.notToken v t := by
  funext ⟨m, b⟩ w
  cases b with
  | nil => rfl
  | cons c r =>
    by_cases hc : t = c
    · simp [Closures.notToken, Parsers.notToken, hc]
    · simp [Closures.notToken, Parsers.notToken, hc]

theorem string_pure [DecidableEq I] (v : Bool) (u : List I) :
    (Closures.string (fun a c => pure (a != c)) v u : Parser σ I (List I) (Error I)) = Parsers.string v u := by
  funext i w
  unfold Closures.string Parsers.string
  by_cases hl : u.length > i.buf.length
  · simp only [if_pos hl]
  · simp only [if_neg hl]
    rw [M.bind_ok (sliceTo_ok (by omega) _), M.bind_ok (sliceTo_ok (by omega) _),
      M.bind_ok (Closures.mismatch_pure _ _ _)]
    cases Parsers.mismatch u (i.buf.take u.length) <;> rfl

end

end Chomp.Closures
