import Verif.Lemmas.Buffer

namespace Chomp

theorem Script.items_data (x : I) (xs : List I) (r : List (Event I)) (k : Nat) :
    (Script.read ⟨.data x xs :: r⟩ (k + 1)).1.items = x :: xs.take k := by
  simp only [Script.read, ReadOut.items]
  have e : some x :: (xs.take k).map some = (x :: xs.take k).map some := rfl
  rw [e, List.take_of_length_le (by simp; omega), filterMap_id_some]

instance : HonestSource (Script I) I where
  honest := by
    intro s k n h
    obtain ⟨ev⟩ := s
    change (Script.read _ _).1.result = _ at h
    change _ ∧ (Script.read _ _).1.items.length = _
    cases ev with
    | nil => cases h; exact ⟨Nat.zero_le _, rfl⟩
    | cons ev r =>
      cases k with
      | zero => simp only [Script.read] at h; cases h; exact ⟨Nat.zero_le _, by simp [Script.read, ReadOut.items]⟩
      | succ k =>
        cases ev with
        | err e => simp [Script.read] at h
        | data x xs =>
          rw [Script.items_data]
          simp only [Script.read, Except.ok.injEq] at h
          simp only [List.length_cons]
          have := List.length_take_le k xs
          omega

theorem Script.delivers : Delivers (Script I) (I := I) Script.rem Script.errs where
  ok := by
    intro s k n h
    obtain ⟨ev⟩ := s
    change (Script.read _ _).1.result = _ at h
    change _ = (Script.read _ _).1.items ++ (Script.read _ _).2.rem ∧ (Script.read _ _).2.errs ≤ _ ∧ _
    cases ev with
    | nil => simp [Script.read, Script.rem, ReadOut.items]
    | cons ev r =>
      cases k with
      | zero => simp [Script.read, ReadOut.items]
      | succ k =>
        cases ev with
        | err e => simp [Script.read] at h
        | data x xs =>
          rw [Script.items_data]
          simp only [Script.read, Except.ok.injEq] at h ⊢
          refine ⟨?_, ?_, fun _ _ => by omega⟩
          · cases hd : xs.drop k with
            | nil =>
              have : xs.take k = xs := by
                have := List.take_append_drop k xs
                rwa [hd, List.append_nil] at this
              simp [Script.rem, this]
            | cons y ys =>
              have := List.take_append_drop k xs
              rw [hd] at this
              simp only [Script.rem, List.flatMap_cons, List.cons_append, List.cons.injEq, true_and]
              conv => lhs; rw [← this]
              simp
          · cases hd : xs.drop k with
            | nil => simp [Script.errs]
            | cons y ys => simp [Script.errs]
  err := by
    intro s k e h
    obtain ⟨ev⟩ := s
    change (Script.read _ _).1.result = _ at h
    change (Script.read _ _).2.rem = _ ∧ (Script.read _ _).2.errs < _
    cases ev with
    | nil => simp [Script.read] at h
    | cons ev r =>
      cases k with
      | zero => simp [Script.read] at h
      | succ k =>
        cases ev with
        | err e => simp [Script.read, Script.rem, Script.errs]
        | data x xs => simp [Script.read] at h

/-! ### reading in general -/

theorem Reads.trans [DataSource S I] {s s' s'' : S} {xs ys : List I} (h : Reads s xs s')
    (h' : Reads s' ys s'') : Reads s (xs ++ ys) s'' := by
  induction h with
  | done => exact h'
  | step k _ ih => rw [List.append_assoc]; exact .step k (ih h')

theorem Reads.one [DataSource S I] (s : S) (k : Nat) :
    Reads s (DataSource.read s k).1.items (DataSource.read s k).2 := by
  have := Reads.step (s := s) k .done
  rwa [List.append_nil] at this

theorem Reads.rem [DataSource S I] {rem : S → List I} {errs : S → Nat} (hd : Delivers S rem errs)
    {s s' : S} {xs : List I} (h : Reads s xs s') : rem s = xs ++ rem s' ∧ errs s' ≤ errs s := by
  induction h with
  | done => exact ⟨rfl, Nat.le_refl _⟩
  | @step s xs s' k _ ih =>
    cases hr : (DataSource.read s k).1.result with
    | ok n =>
      obtain ⟨h1, h2, _⟩ := hd.ok s k n hr
      exact ⟨by rw [h1, ih.1, List.append_assoc], by omega⟩
    | error e =>
      obtain ⟨h1, h2⟩ := hd.err s k e hr
      exact ⟨by rw [← h1, ih.1]; simp [ReadOut.items, hr], by omega⟩

/-- One operation on a lawful buffer. -/
theorem BufOp.run_inv [DataSource S I] [HonestSource S I] [Buffer B I] [LawfulBuffer B I] (chk : Bool)
    (op : BufOp) (s : S) (b : B) (h : LawfulBuffer.Inv b)
    (hl : ∀ n, op = .consume n → n ≤ (LawfulBuffer.view b).length) :
    ((∃ n, op = .requestSpace n ∧ Buffer.requestSpace chk n b = .panic) ∧ op.run chk (s, b) = .panic) ∨
    ∃ s' b' xs, op.run chk (s, b) = .ok (s', b') ∧ LawfulBuffer.Inv b' ∧ Reads s xs s' ∧
      consumed [op] ≤ (LawfulBuffer.view b).length ∧
      LawfulBuffer.view b' = (LawfulBuffer.view b).drop (consumed [op]) ++ xs ∧
      Buffer.capacity b ≤ Buffer.capacity b' ∧
      ((∀ n, op ≠ .requestSpace n) → Buffer.capacity b' = Buffer.capacity b) := by
  cases op with
  | fill =>
    right
    obtain ⟨b', h1, h2, h3, _, h5, _⟩ := LawfulBuffer.fill chk s h
    refine ⟨_, b', _, ?_, h2, Reads.one s _, Nat.zero_le _, by rw [h3]; rfl, Nat.le_of_eq h5.symm,
      fun _ => h5⟩
    simp only [BufOp.run, h1, Res.bind_ok]
  | requestSpace n =>
    rcases LawfulBuffer.request chk n h with hp | ⟨b', h1, h2, h3, h4, _⟩
    · exact .inl ⟨⟨n, rfl, hp⟩, by simp [BufOp.run, hp]⟩
    · exact .inr ⟨s, b', [], by simp [BufOp.run, h1], h2, .done, Nat.zero_le _, by rw [h3]; simp [consumed],
        h4, fun hm => absurd rfl (hm n)⟩
  | consume n =>
    right
    have hn := hl n rfl
    obtain ⟨b', h1, h2, h3, _, h5, _⟩ := LawfulBuffer.consume chk h hn
    exact ⟨s, b', [], by simp [BufOp.run, h1], h2, .done, by simpa [consumed] using hn, by rw [h3]; simp [consumed],
      Nat.le_of_eq h5.symm, fun _ => h5⟩

theorem consumed_cons (op : BufOp) (ops : List BufOp) :
    consumed (op :: ops) = consumed [op] + consumed ops := by
  cases op <;> simp [consumed]

theorem legal_head [DataSource S I] [Buffer B I] [LawfulBuffer B I] {chk : Bool} {op : BufOp}
    {ops : List BufOp} {s : S} {b : B} (h : LawfulBuffer.Inv b) (hl : Legal chk (op :: ops) (s, b)) :
    ∀ n, op = .consume n → n ≤ (LawfulBuffer.view b).length := by
  intro n hn
  obtain ⟨l, h1, h2⟩ := hl.1 n hn
  rw [LawfulBuffer.len chk h] at h1
  cases h1
  exact h2

/-- A history of operations on a lawful buffer. -/
theorem runOps_inv [DataSource S I] [HonestSource S I] [Buffer B I] [LawfulBuffer B I] (chk : Bool) :
    ∀ (ops : List BufOp) (s : S) (b : B), LawfulBuffer.Inv b → Legal chk ops (s, b) →
    runOps chk ops (s, b) = .panic ∨
    ∃ s' b' xs, runOps chk ops (s, b) = .ok (s', b') ∧ LawfulBuffer.Inv b' ∧ Reads s xs s' ∧
      consumed ops ≤ (LawfulBuffer.view b ++ xs).length ∧
      LawfulBuffer.view b' = (LawfulBuffer.view b ++ xs).drop (consumed ops) ∧
      Buffer.capacity b ≤ Buffer.capacity b' := by
  intro ops
  induction ops with
  | nil =>
    intro s b h _
    exact .inr ⟨s, b, [], rfl, h, .done, Nat.zero_le _, by simp [consumed], Nat.le_refl _⟩
  | cons op ops ih =>
    intro s b h hl
    rcases BufOp.run_inv chk op s b h (legal_head h hl) with ⟨_, hp⟩ | ⟨s1, b1, xs, h1, h2, h3, h4, h5, h6, _⟩
    · left; simp [runOps, hp]
    · rcases ih s1 b1 h2 (hl.2 _ h1) with hp | ⟨s2, b2, ys, g1, g2, g3, g4, g5, g6⟩
      · left; simp [runOps, h1, hp]
      · right
        have e : LawfulBuffer.view b1 ++ ys = (LawfulBuffer.view b ++ (xs ++ ys)).drop (consumed [op]) := by
          rw [h5, List.drop_append_of_le_length h4, List.append_assoc]
        refine ⟨s2, b2, xs ++ ys, by simp [runOps, h1, g1], g2, h3.trans g3, ?_, ?_, by omega⟩
        · rw [consumed_cons op ops]
          have := congrArg List.length e
          simp only [List.length_drop, List.length_append] at this g4 ⊢
          omega
        · rw [g5, e, List.drop_drop, consumed_cons op ops]

/-- A check for `Legal`. -/
def legalCheck [DataSource S I] [Buffer B I] (chk : Bool) : List BufOp → S × B → Bool
  | [], _ => true
  | op :: ops, x =>
    (match op with
      | .consume n => match Buffer.len chk x.2 with
        | .ok l => n ≤ l
        | _ => false
      | _ => true) &&
    (match op.run chk x with
      | .ok x' => legalCheck chk ops x'
      | _ => true)

theorem legal_of_check [DataSource S I] [Buffer B I] {chk : Bool} : ∀ {ops : List BufOp} {x : S × B},
    legalCheck chk ops x = true → Legal chk ops x := by
  intro ops
  induction ops with
  | nil => intro x _; exact True.intro
  | cons op ops ih =>
    intro x h
    simp only [legalCheck, Bool.and_eq_true] at h
    refine ⟨fun n hn => ?_, fun x' hx => ?_⟩
    · subst hn
      have h1 := h.1
      dsimp only at h1
      cases hl : Buffer.len chk x.2 with
      | ok l => rw [hl] at h1; exact ⟨l, rfl, by simpa using h1⟩
      | _ => rw [hl] at h1; cases h1
    · have h2 := h.2
      rw [hx] at h2
      exact ih h2

end Chomp
