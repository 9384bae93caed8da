import Verif.Lemmas.Retry
import Verif.Spec.Runs

/-
The runs of the parser in a retry loop.
-/

namespace Chomp

open Spec

variable {S B I : Type} [DataSource S I] [HonestSource S I] [Buffer B I] [LawfulBuffer B I]

namespace Runs

omit [DataSource S I] [HonestSource S I] in
theorem finish_state {chk : Bool} {s s' : Source S B} {r : ParseResult I T E} {w w' : σ}
    {x : Except (StreamError I E) T} (h : s.finish chk (r, w) = .ok ((x, s'), w')) : w' = w := by
  cases r with
  | data i t =>
    unfold Source.finish at h
    dsimp only at h
    cases hu : usubB chk (held s).length i.buf.length with
    | ok d =>
      rw [hu, Res.bind_ok] at h
      cases hb : Buffer.consume chk d s.buffer with
      | ok b => rw [hb] at h; cases h; rfl
      | _ => rw [hb] at h; cases h
    | _ => rw [hu] at h; cases h
  | error b e =>
    unfold Source.finish at h
    dsimp only at h
    cases hu : usubB chk (held s).length b.length with
    | ok d =>
      rw [hu, Res.bind_ok] at h
      cases hb : Buffer.consume chk d s.buffer with
      | ok b => rw [hb] at h; cases h; rfl
      | _ => rw [hb] at h; cases h
    | _ => rw [hu] at h; cases h
  | incomplete n =>
    unfold Source.finish at h
    dsimp only at h
    cases hu : uaddB chk (held s).length n with
    | ok d =>
      rw [hu, Res.bind_ok] at h
      split at h <;> cases h <;> rfl
    | _ => rw [hu] at h; cases h

theorem recorded_ok {p : Parser σ I T E} {i : Input I} {w : σ} {l : List (Run I)}
    {r : ParseResult I T E} {w' : σ × List (Run I)} (h : recorded p i (w, l) = .ok (r, w')) :
    p i w = .ok (r, w'.1) ∧ w'.2 = l ++ [⟨i, request r⟩] := by
  unfold recorded at h
  dsimp only at h
  split at h <;> cases h
  exact ⟨by assumption, rfl⟩

omit [HonestSource S I] in
/-- What is added to the record. -/
theorem attempt_log {chk : Bool} {p : Parser σ I T E} {s s' : Source S B} (h : Usable s) {w : σ}
    {l : List (Run I)} {w' : σ × List (Run I)} {x : Except (StreamError I E) T}
    (hr : s.attempt chk (recorded p) (w, l) = .ok ((x, s'), w')) :
    w'.2 = l ∨ ∃ a, w'.2 = l ++ [⟨⟨modeOf s, held s⟩, a⟩] ∧
      ∃ r w1, p ⟨modeOf s, held s⟩ w = .ok (r, w1) ∧ a = request r := by
  by_cases hne : s.state.endOfInput = true ∧ held s = []
  · rw [Source.attempt_end chk _ s _ h hne.1 hne.2] at hr
    cases hr
    exact .inl rfl
  · rw [Source.attempt_eq chk _ s _ h hne] at hr
    match hf : recorded p ⟨modeOf s, held s⟩ (w, l) with
    | .ok (r, w1) =>
      rw [hf, Res.bind_ok] at hr
      have := finish_state hr
      subst this
      exact .inr ⟨_, (recorded_ok hf).2, _, _, (recorded_ok hf).1, rfl⟩
    | .panic => rw [hf] at hr; cases hr
    | .ub => rw [hf] at hr; cases hr
    | .div => rw [hf] at hr; cases hr

/-- Consecutive runs. -/
def Steps (l : List (Run I)) : Prop := ∀ l1 a b l2, l = l1 ++ a :: b :: l2 →
  a.input.mode = .default ∧ ∃ n, a.asked = some n ∧ a.size ≤ b.size ∧
    (b.input.mode = .default → a.size + n ≤ b.size)

theorem Steps.snoc {l : List (Run I)} {b : Run I} (h : Steps l)
    (hb : ∀ l1 a, l = l1 ++ [a] → a.input.mode = .default ∧ ∃ n, a.asked = some n ∧ a.size ≤ b.size ∧
      (b.input.mode = .default → a.size + n ≤ b.size)) : Steps (l ++ [b]) := by
  intro l1 x y l2 he
  rcases List.eq_nil_or_concat l2 with rfl | ⟨l3, z, rfl⟩
  · rw [show l1 ++ [x, y] = (l1 ++ [x]) ++ [y] by simp] at he
    obtain ⟨h1, h2⟩ := List.append_inj' he rfl
    cases h2
    exact hb l1 x h1
  · rw [List.concat_eq_append, show l1 ++ x :: y :: (l3 ++ [z]) = (l1 ++ x :: y :: l3) ++ [z] by simp] at he
    obtain ⟨h1, h2⟩ := List.append_inj' he rfl
    exact h l1 x y l3 h1

/-- A run of `p` on a beginning of `full`. -/
def IsRun (p : Parser σ I T E) (full : List I) (a : Run I) : Prop :=
  (∃ y, full = a.input.buf ++ y) ∧ ∃ w r w', p a.input w = .ok (r, w') ∧ a.asked = request r

/-- What is true between the turns of the loop. -/
structure Between (rem : S → List I) (p : Parser σ I T E) (full : List I) (s : Source S B) (l : List (Run I)) : Prop where
  usable : Usable s
  automatic : s.state.automaticFill = true
  ahead : ahead rem s = full
  steps : Steps l
  parts : ∀ a ∈ l, IsRun p full a
  last : ∀ l1 a, l = l1 ++ [a] → a.input.mode = .default ∧ s.state.incomplete = true ∧
    a.size ≤ (held s).length ∧ ∃ n, a.asked = some n ∧ a.size + n = s.request

/-- What is true at the end. -/
def Done (p : Parser σ I T E) (full : List I) (l : List (Run I)) : Prop :=
  Steps l ∧ ∀ a ∈ l, IsRun p full a

theorem turn {rem : S → List I} {errs : S → Nat} (hd : Delivers S rem errs) (chk : Bool)
    {p : Parser σ I T E} {full : List I}
    (hq : ∀ x y w n w', full = x ++ y → p ⟨.default, x⟩ w = .ok (.incomplete n, w') →
      x.length + n ≤ usizeMax)
    {s s' : Source S B} {w : σ} {l : List (Run I)} {w' : σ × List (Run I)}
    (h : Between rem p full s l) {r : Except (StreamError I E) T}
    (hr : s.parse chk (recorded p) (w, l) = .ok ((r, s'), w')) :
    Done p full w'.2 ∧ ((r = .error .retry ∨ ∃ e, r = .error (.ioError e)) → Between rem p full s' w'.2) := by
  rw [Source.parse_eq] at hr
  -- the parser is run on `s1`
  have run : ∀ s1 : Source S B, Usable s1 → s1.state.automaticFill = true → Spec.ahead rem s1 = full →
      (∀ l1 a, l = l1 ++ [a] → a.input.mode = .default ∧ a.size ≤ (held s1).length ∧
        ∃ n, a.asked = some n ∧ (modeOf s1 = .default → a.size + n ≤ (held s1).length)) →
      s1.attempt chk (recorded p) (w, l) = .ok ((r, s'), w') →
      Done p full w'.2 ∧ ((r = .error .retry ∨ ∃ e, r = .error (.ioError e)) →
        Between rem p full s' w'.2) := by
    intro s1 k1 k2 k3 k4 k5
    have hdone : Done p full w'.2 := by
      rcases attempt_log k1 k5 with g | ⟨a, g, r0, w0, ga, gb⟩
      · rw [g]; exact ⟨h.steps, h.parts⟩
      · rw [g]
        refine ⟨h.steps.snoc fun l1 b hb => ?_, fun b hb => ?_⟩
        · obtain ⟨j1, j2, n, j3, j4⟩ := k4 l1 b hb
          exact ⟨j1, n, j3, j2, j4⟩
        · rcases List.mem_append.mp hb with hb | hb
          · exact h.parts b hb
          · cases List.mem_singleton.mp hb
            exact ⟨⟨rem s1.source, k3.symm⟩, _, _, _, ga, gb⟩
    refine ⟨hdone, ?_⟩
    rintro (rfl | ⟨e, rfl⟩)
    · obtain ⟨g1, n, m, g2, g3, rfl⟩ := attempt_retry k1 k5
      obtain ⟨g4, g5⟩ := recorded_ok g2
      have := hq _ _ _ _ _ k3.symm g4
      rw [uaddB_ok this] at g3
      cases g3
      refine ⟨k1, k2, k3, hdone.1, hdone.2, fun l1 a ha => ?_⟩
      rw [g5] at ha
      obtain ⟨_, ha⟩ := List.append_inj' ha rfl
      cases ha
      exact ⟨rfl, rfl, Nat.le_refl _, n, rfl, rfl⟩
    · exact absurd k5 (attempt_no_io k1)
  by_cases hi : s.state.incomplete = true
  · rw [if_pos (by simp [hi, h.automatic])] at hr
    rcases Source.fill_spec chk s h.usable with ⟨h1, _⟩ | ⟨e, s1, xs, h1, h2⟩ | ⟨n, s1, xs, h1, h2⟩
    · rw [h1] at hr; cases hr
    · rw [h1, Res.bind_ok] at hr
      cases hr
      have hrd := h2.reads.rem hd
      refine ⟨⟨h.steps, h.parts⟩, fun _ => ⟨h2.usable, by rw [h2.state]; exact h.automatic, ?_, h.steps,
        h.parts, fun l1 a ha => ?_⟩⟩
      · rw [← h.ahead]; unfold Spec.ahead; rw [h2.held, hrd.1, List.append_assoc]
      · obtain ⟨j1, j2, j3, j4⟩ := h.last l1 a ha
        refine ⟨j1, by rw [h2.state]; exact j2, ?_, by rw [h2.request_eq]; exact j4⟩
        rw [h2.held, List.length_append]; omega
    · rw [h1, Res.bind_ok] at hr
      have hrd := h2.reads.rem hd
      have hh := congrArg List.length h2.held
      rw [List.length_append] at hh
      refine run { s1 with state := s1.afterFill } h2.usable
        (by show s1.state.automaticFill = true; rw [h2.state]; exact h.automatic) ?_ ?_ hr
      · rw [← h.ahead]
        show held s1 ++ rem s1.source = _
        unfold Spec.ahead; rw [h2.held, hrd.1, List.append_assoc]
      · intro l1 a ha
        obtain ⟨j1, _, j3, n, j4, j5⟩ := h.last l1 a ha
        refine ⟨j1, ?_, n, j4, fun hm => ?_⟩
        · show a.size ≤ (held s1).length
          omega
        · show a.size + n ≤ (held s1).length
          have he : s1.afterFill.endOfInput = false := by
            cases he : s1.afterFill.endOfInput with
            | false => rfl
            | true =>
              rw [modeOf_end (s := { s1 with state := s1.afterFill }) he] at hm
              cases hm
          change (!decide ((held s1).length ≥ max 1 s1.request)) = false at he
          rw [h2.request_eq] at he
          have he : max 1 s.request ≤ (held s1).length := by simpa using he
          omega
  · rw [if_neg (by simp [hi]), Res.bind_ok] at hr
    refine run s h.usable h.automatic h.ahead (fun l1 a ha => ?_) hr
    exact absurd (h.last l1 a ha).2.1 hi

/-- All of the runs. -/
theorem retry_runs {rem : S → List I} {errs : S → Nat} (hd : Delivers S rem errs) (chk : Bool)
    {p : Parser σ I T E} {full : List I}
    (hq : ∀ x y w n w', full = x ++ y → p ⟨.default, x⟩ w = .ok (.incomplete n, w') →
      x.length + n ≤ usizeMax)
    {s s' : Source S B} {w : σ} {l : List (Run I)} {w' : σ × List (Run I)}
    (h : Between rem p full s l) {r : Except (StreamError I E) T}
    (hr : retry chk (recorded p) s (w, l) = .ok ((r, s'), w')) : Done p full w'.2 := by
  unfold retry at hr
  have hrun := loop_eq_ok.mp hr
  clear hr
  generalize hw : (w, l) = w0 at hrun
  generalize ho : Res.ok ((r, s'), w') = o at hrun
  induction hrun generalizing w l with
  | brk h1 =>
    subst hw
    cases ho
    rw [M.map_apply] at h1
    match hp : Source.parse chk (recorded p) _ (w, l), h1 with
    | .ok ((r1, s1), w1), h1 =>
      have e2 := (Prod.mk.inj (Res.ok.inj h1)).2
      subst e2
      exact (turn hd chk hq h hp).1
  | panic => cases ho
  | ub => cases ho
  | cont h1 _ ih =>
    subst hw
    rw [M.map_apply] at h1
    match hp : Source.parse chk (recorded p) _ (w, l), h1 with
    | .ok ((r1, s1), w1), h1 =>
      have ⟨_, hb⟩ := turn hd chk hq h hp
      have e1 := (Prod.mk.inj (Res.ok.inj h1)).1
      have e2 := (Prod.mk.inj (Res.ok.inj h1)).2
      subst e2
      rcases r1 with e | t
      · cases e with
        | retry => cases e1; exact ih (hb (.inl rfl)) rfl ho
        | ioError e => cases e1; exact ih (hb (.inr ⟨_, rfl⟩)) rfl ho
        | _ => cases e1
      · cases e1

/-- Runs which ask for something: the `k`-th one but the last sees at least `k` items. -/
theorem Steps.size_ge {l : List (Run I)} (h : Steps l) (hp : ∀ a ∈ l, a.input.mode = .default → a.asked ≠ some 0) :
    ∀ l1 a l2, l = l1 ++ a :: l2 → a.input.mode = .default → l1.length ≤ a.size := by
  intro l1
  induction hk : l1.length generalizing l1 with
  | zero => intros; exact Nat.zero_le _
  | succ k ih =>
    intro a l2 he hm
    rcases List.eq_nil_or_concat l1 with rfl | ⟨l3, b, rfl⟩
    · cases hk
    · rw [List.concat_eq_append] at he hk
      rw [List.append_assoc] at he
      obtain ⟨g1, n, g2, g3, g4⟩ := h l3 b a l2 he
      have := ih l3 (by simpa using hk) b (a :: l2) he g1
      have hn : n ≠ 0 := fun h0 => hp b (by rw [he]; simp) g1 (by rw [g2, h0])
      have := g4 hm
      omega

theorem forget_lift {α β : Type} (x : Res α) {k : α → M (σ × List (Run I)) β} {k' : α → M σ β}
    {w : σ × List (Run I)} (h : ∀ a, forget (k a w) = k' a w.1) :
    forget ((M.lift x >>= k) w) = (M.lift x >>= k') w.1 := by
  rw [M.lift_bind, M.lift_bind]
  cases x with
  | ok a => exact h a
  | _ => rfl

omit [DataSource S I] [HonestSource S I] [LawfulBuffer B I] in
theorem forget_attempt (chk : Bool) (p : Parser σ I T E) (s : Source S B) (w : σ × List (Run I)) :
    forget (s.attempt chk (recorded p) w) = s.attempt chk p w.1 := by
  unfold Source.attempt
  refine forget_lift _ fun e => ?_
  split
  · rfl
  refine forget_lift _ fun b => ?_
  rw [M.bind_apply, M.bind_apply]
  unfold recorded
  match p ⟨modeOf s, b⟩ w.1 with
  | .panic => rfl
  | .ub => rfl
  | .div => rfl
  | .ok (.data i t, w1) =>
    dsimp only
    rw [Res.bind_ok, Res.bind_ok]
    refine forget_lift _ fun e => ?_
    refine forget_lift _ fun e => ?_
    exact forget_lift _ fun e => rfl
  | .ok (.error i t, w1) =>
    dsimp only
    rw [Res.bind_ok, Res.bind_ok]
    refine forget_lift _ fun e => ?_
    refine forget_lift _ fun e => ?_
    exact forget_lift _ fun e => rfl
  | .ok (.incomplete n, w1) =>
    dsimp only
    rw [Res.bind_ok, Res.bind_ok]
    refine forget_lift _ fun e => ?_
    refine forget_lift _ fun e => ?_
    dsimp only
    split <;> rfl

omit [HonestSource S I] [LawfulBuffer B I] in
theorem forget_parse (chk : Bool) (p : Parser σ I T E) (s : Source S B) (w : σ × List (Run I)) :
    forget (s.parse chk (recorded p) w) = s.parse chk p w.1 := by
  rw [Source.parse_eq, Source.parse_eq]
  match (if (s.state.incomplete && s.state.automaticFill) = true then Source.fill chk s
    else .ok (.ok 0, s)) with
  | .panic => rfl
  | .ub => rfl
  | .div => rfl
  | .ok (.error e, s1) => rfl
  | .ok (.ok n, s1) => exact forget_attempt chk p s1 w

omit [HonestSource S I] [LawfulBuffer B I] in
theorem forget_retry (chk : Bool) (p : Parser σ I T E) (s : Source S B) (w : σ × List (Run I)) :
    forget (retry chk (recorded p) s w) = retry chk p s w.1 := by
  unfold retry
  refine loop_sim (R := fun s1 w1 s2 w2 => s1 = s2 ∧ w1.1 = w2) (Q := fun a b => forget a = b) rfl ?_
    ⟨rfl, rfl⟩
  rintro s1 w1 _ _ ⟨rfl, rfl⟩
  rw [loop_apply, loop_apply, M.map_apply, M.map_apply]
  have := forget_parse chk p s1 w1
  match h1 : s1.parse chk (recorded p) w1, h2 : s1.parse chk p w1.1 with
  | .ok ((r, s2), w2), .ok ((r', s2'), w2') =>
    rw [h1, h2] at this
    cases this
    rcases r with e | t
    · cases e with
      | retry => exact .inl ⟨_, _, _, _, rfl, rfl, rfl, rfl⟩
      | ioError e => exact .inl ⟨_, _, _, _, rfl, rfl, rfl, rfl⟩
      | _ => exact .inr rfl
    · exact .inr rfl
  | .ok ((r, s2), w2), .panic | .ok ((r, s2), w2), .ub | .ok ((r, s2), w2), .div
  | .panic, .ok _ | .panic, .ub | .panic, .div
  | .ub, .ok _ | .ub, .panic | .ub, .div
  | .div, .ok _ | .div, .panic | .div, .ub => rw [h1, h2] at this; cases this
  | .panic, .panic | .ub, .ub | .div, .div => exact .inr rfl

instance : HonestSource (Counting S) I := ⟨fun s k n h => HonestSource.honest s.source k n h⟩

omit [HonestSource S I] in
theorem delivers {rem : S → List I} {errs : S → Nat} (hd : Delivers S rem errs) :
    Delivers (Counting S) (fun s => rem s.source) (fun s => errs s.source) :=
  ⟨fun s k n h => hd.ok s.source k n h, fun s k e h => hd.err s.source k e h⟩

theorem budget {rem : S → List I} {errs : S → Nat} (hd : Delivers S rem errs) :
    Budget (Counting S) fun s => s.reads + ((rem s.source).length + errs s.source) := by
  refine ⟨fun s k h => ?_, fun s k n h => ?_, fun s k e h => ?_⟩
  · obtain ⟨h1, h2, _⟩ := hd.ok s.source k 0 h
    have := congrArg List.length h1
    rw [List.length_append] at this
    show s.reads + 1 + ((rem (DataSource.read s.source k).2).length + errs (DataSource.read s.source k).2) ≤ _
    omega
  · obtain ⟨h1, h2, _⟩ := hd.ok s.source k _ h
    have h3 := (HonestSource.honest s.source k _ h).2
    have := congrArg List.length h1
    rw [List.length_append] at this
    show s.reads + 1 + ((rem (DataSource.read s.source k).2).length + errs (DataSource.read s.source k).2) ≤ _
    omega
  · obtain ⟨h1, h2⟩ := hd.err s.source k e h
    show s.reads + 1 + ((rem (DataSource.read s.source k).2).length + errs (DataSource.read s.source k).2) ≤ _
    rw [h1]
    omega

/-- One turn of the loop, and what it costs. -/
theorem turn_budget {m : S → Nat} (hm : Budget S m) (chk : Bool) {p : Parser σ I T E}
    {s s' : Source S B} {w w' : σ} (h : Usable s) {r : Except (StreamError I E) T}
    (hr : s.parse chk p w = .ok ((r, s'), w')) :
    m s'.source ≤ m s.source + 1 ∧
    ((r = .error .retry ∨ ∃ e, r = .error (.ioError e)) → Usable s' ∧ m s'.source ≤ m s.source) := by
  rw [Source.parse_eq] at hr
  split at hr
  · rcases Source.fill_spec chk s h with ⟨h1, _⟩ | ⟨e, s1, xs, h1, h2⟩ | ⟨n, s1, xs, h1, h2⟩
    · rw [h1] at hr; cases hr
    · rw [h1, Res.bind_ok] at hr
      cases hr
      obtain ⟨g1, g2⟩ := h2.budget m hm
      exact ⟨g1, fun _ => ⟨h2.usable, g2 (.inr ⟨e, rfl⟩)⟩⟩
    · rw [h1, Res.bind_ok] at hr
      obtain ⟨g1, g2⟩ := h2.budget m hm
      have hu : Usable { s1 with state := s1.afterFill } := h2.usable
      have k1 : s'.source = s1.source := (Source.attempt_source chk p _ w w' hr).1
      rw [k1]
      refine ⟨g1, ?_⟩
      rintro (rfl | ⟨e, rfl⟩)
      · obtain ⟨k2, n, m', k3, k4, k5⟩ := attempt_retry hu hr
        refine ⟨by rw [k5]; exact h2.usable, g2 (.inl ?_)⟩
        change (!decide ((held s1).length ≥ max 1 s1.request)) = false at k2
        rw [h2.request_eq] at k2
        simpa using k2
      · exact absurd hr (attempt_no_io hu)
  · rw [Res.bind_ok] at hr
    have k1 : s'.source = s.source := (Source.attempt_source chk p _ w w' hr).1
    rw [k1]
    refine ⟨Nat.le_succ _, ?_⟩
    rintro (rfl | ⟨e, rfl⟩)
    · obtain ⟨k2, n, m', k3, k4, k5⟩ := attempt_retry h hr
      exact ⟨by rw [k5]; exact h, Nat.le_refl _⟩
    · exact absurd hr (attempt_no_io h)

theorem retry_budget {m : S → Nat} (hm : Budget S m) (chk : Bool) {p : Parser σ I T E}
    {s s' : Source S B} {w w' : σ} (h : Usable s) {r : Except (StreamError I E) T}
    (hr : retry chk p s w = .ok ((r, s'), w')) : m s'.source ≤ m s.source + 1 := by
  unfold retry at hr
  have hrun := loop_eq_ok.mp hr
  clear hr
  generalize ho : Res.ok ((r, s'), w') = o at hrun
  induction hrun with
  | @brk s w r0 w0 h1 =>
    cases ho
    rw [M.map_apply] at h1
    match hp : Source.parse chk p s w, h1 with
    | .ok ((r1, s1), w1), h1 =>
      have e1 := (Prod.mk.inj (Res.ok.inj h1)).1
      have : s1 = s' := by
        rcases r1 with e | t
        · cases e <;> cases e1 <;> rfl
        · cases e1; rfl
      subst this
      exact (turn_budget hm chk h hp).1
  | panic => cases ho
  | ub => cases ho
  | @cont s w s1 w1 o h1 _ ih =>
    rw [M.map_apply] at h1
    match hp : Source.parse chk p s w, h1 with
    | .ok ((r1, s2), w2), h1 =>
      have ⟨_, hb⟩ := turn_budget hm chk h hp
      have e1 := (Prod.mk.inj (Res.ok.inj h1)).1
      have key : (r1 = .error .retry ∨ ∃ e, r1 = .error (.ioError e)) ∧ s2 = s1 := by
        rcases r1 with e | t
        · cases e with
          | retry => cases e1; exact ⟨.inl rfl, rfl⟩
          | ioError e => cases e1; exact ⟨.inr ⟨_, rfl⟩, rfl⟩
          | _ => cases e1
        · cases e1
      obtain ⟨k1, rfl⟩ := key
      obtain ⟨k2, k3⟩ := hb k1
      have := ih k2 ho
      omega

end Runs

end Chomp
