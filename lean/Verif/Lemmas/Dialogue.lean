import Verif.Lemmas.Runs
import Verif.Spec.Dialogue

/-
When a source of data is read.
-/

namespace Chomp

open Spec

variable {S B I : Type} [DataSource S I] [HonestSource S I] [Buffer B I] [LawfulBuffer B I]

namespace Dialogue

instance honest : HonestSource (Watched S) I := ⟨fun s k n h => HonestSource.honest s.source k n h⟩

omit [HonestSource S I] in
theorem delivers {rem : S → List I} {errs : S → Nat} (hd : Delivers S rem errs) :
    Delivers (Watched S) (Watched.rem rem) (fun s => errs s.source) :=
  ⟨fun s k n h => hd.ok s.source k n h, fun s k e h => hd.err s.source k e h⟩

theorem uaddB_le {chk : Bool} {a b m : Nat} (h : uaddB chk a b = .ok m) : m ≤ a + b := by
  unfold uaddB at h
  split at h
  · cases h; exact Nat.le_refl _
  · split at h
    · cases h
    · cases h; exact Nat.mod_le _ _

omit [HonestSource S I] in
/-- What a watched source does in a run of `fill_requested`. -/
theorem filled {chk : Bool} {req k : Nat} {s s' : Source (Watched S) B} {r : Except IoError Nat}
    {xs : List I} (hf : Source.Filled chk req s r s' xs) (hk : req ≤ k) :
    ReadsBelow k s s' ∧
      s'.source.total + (held s).length = (held s').length + s.source.total := by
  obtain ⟨h1, _, new, h2, h3⟩ := hf.below
    (fun x n => x.total + (held s).length = n + s.source.total ∧ (held s).length ≤ n ∧
      ∃ new, x.log = s.source.log ++ new ∧
        ∀ d ∈ new, s.source.total ≤ d ∧ (held s).length + (d - s.source.total) < k)
    (by
      rintro x n j hn ⟨h1, h0, new, h2, h3⟩
      refine ⟨?_, by omega, new ++ [x.total], ?_, ?_⟩
      · show x.total + (DataSource.read x j).1.items.length + _ = _
        omega
      · show x.log ++ [x.total] = _
        rw [h2, List.append_assoc]
      · intro d hd
        rcases List.mem_append.mp hd with hd | hd
        · exact h3 d hd
        · cases List.mem_singleton.mp hd
          omega)
    ⟨by omega, Nat.le_refl _, [], by simp, nofun⟩
  exact ⟨⟨new, h2, h3⟩, h1⟩

omit [DataSource S I] [HonestSource S I] in
theorem below_refl (k : Nat) {s s' : Source (Watched S) B} (h : s'.source = s.source) :
    ReadsBelow k s s' := ⟨[], by rw [h, List.append_nil], nofun⟩

omit [DataSource S I] [HonestSource S I] in
theorem below_trans {k : Nat} {s s1 s2 : Source (Watched S) B} (h1 : ReadsBelow k s s1)
    (he : s1.source.total + (held s).length = (held s1).length + s.source.total)
    (hm : (held s).length ≤ (held s1).length) (h2 : ReadsBelow k s1 s2) : ReadsBelow k s s2 := by
  obtain ⟨n1, h1, h1'⟩ := h1
  obtain ⟨n2, h2, h2'⟩ := h2
  refine ⟨n1 ++ n2, by rw [h2, h1, List.append_assoc], fun d hd => ?_⟩
  rcases List.mem_append.mp hd with hd | hd
  · exact h1' d hd
  · have := h2' d hd
    omega

omit [DataSource S I] [HonestSource S I] in
theorem below_mono {k k' : Nat} (hk : k ≤ k') {s s' : Source (Watched S) B} (h : ReadsBelow k s s') :
    ReadsBelow k' s s' := by
  obtain ⟨n, h1, h2⟩ := h
  exact ⟨n, h1, fun d hd => ⟨(h2 d hd).1, Nat.lt_of_lt_of_le (h2 d hd).2 hk⟩⟩

/-- One turn of the retry loop. -/
theorem turn {rem : S → List I} {errs : S → Nat} (hd : Delivers S rem errs) (chk : Bool) {k : Nat}
    {p : Parser σ I T E} {s s' : Source (Watched S) B} {w w' : σ} (h : Usable s)
    (hk : s.state.incomplete = true → max 1 s.request ≤ k)
    {r : Except (StreamError I E) T} (hr : s.parse chk p w = .ok ((r, s'), w')) :
    ReadsBelow k s s' ∧
    ((r = .error .retry ∨ ∃ e, r = .error (.ioError e)) → Usable s' ∧
      s'.source.total + (held s).length = (held s').length + s.source.total ∧
      (held s).length ≤ (held s').length ∧
      ahead (Watched.rem rem) s' = ahead (Watched.rem rem) s ∧
      (1 ≤ k → AsksWithin k p (ahead (Watched.rem rem) s) →
        s'.state.incomplete = true → max 1 s'.request ≤ k)) := by
  have hd' := delivers hd
  rw [Source.parse_eq] at hr
  split at hr
  · rename_i hc
    have hi : s.state.incomplete = true := by revert hc; cases s.state.incomplete <;> simp
    have hk := hk hi
    rcases Source.fill_spec chk s h with ⟨h1, _⟩ | ⟨e, s1, xs, h1, h2⟩ | ⟨n, s1, xs, h1, h2⟩
    · rw [h1] at hr; cases hr
    · rw [h1, Res.bind_ok] at hr
      cases hr
      obtain ⟨g1, g2⟩ := filled h2 hk
      refine ⟨g1, fun _ => ⟨h2.usable, g2, by rw [h2.held]; simp, ?_, fun _ _ _ => ?_⟩⟩
      · unfold ahead
        rw [h2.held, List.append_assoc, ← (h2.reads.rem hd').1]
      · rw [h2.request_eq]; exact hk
    · rw [h1, Res.bind_ok] at hr
      obtain ⟨g1, g2⟩ := filled h2 hk
      have hu : Usable { s1 with state := s1.afterFill } := h2.usable
      have k1 : s'.source = s1.source := (Source.attempt_source chk p _ w w' hr).1
      have g3 : ReadsBelow k s s' := by
        obtain ⟨new, a, b⟩ := g1
        exact ⟨new, by rw [k1]; exact a, b⟩
      refine ⟨g3, ?_⟩
      rintro (rfl | ⟨e, rfl⟩)
      · obtain ⟨k2, n, m', k3, k4, k5⟩ := attempt_retry hu hr
        have e1 : held s' = held s1 := by rw [k5]; rfl
        have e2 : ahead (Watched.rem rem) s = held s1 ++ Watched.rem rem s1.source := by
          unfold ahead
          rw [h2.held, List.append_assoc, ← (h2.reads.rem hd').1]
        refine ⟨by rw [k5]; exact h2.usable, by rw [k1, e1]; exact g2,
          by rw [e1, h2.held]; simp, ?_, fun h1k hq _ => ?_⟩
        · rw [e2]; unfold ahead; rw [e1, k1]
        · have := hq _ _ w n w' e2 k3
          have := uaddB_le k4
          rw [k5]
          show max 1 m' ≤ k
          change m' ≤ (held s1).length + n at this
          omega
      · exact absurd hr (attempt_no_io hu)
  · rw [Res.bind_ok] at hr
    have k1 : s'.source = s.source := (Source.attempt_source chk p _ w w' hr).1
    refine ⟨below_refl k k1, ?_⟩
    rintro (rfl | ⟨e, rfl⟩)
    · obtain ⟨k2, n, m', k3, k4, k5⟩ := attempt_retry h hr
      have e1 : held s' = held s := by rw [k5]; rfl
      refine ⟨by rw [k5]; exact h, by rw [k1, e1]; omega, by rw [e1]; exact Nat.le_refl _,
        by unfold ahead; rw [e1, k1], fun h1k hq _ => ?_⟩
      have := hq _ _ w n w' rfl k3
      have := uaddB_le k4
      rw [k5]
      show max 1 m' ≤ k
      omega
    · exact absurd hr (attempt_no_io h)

theorem retry_below {rem : S → List I} {errs : S → Nat} (hd : Delivers S rem errs) (chk : Bool)
    {k : Nat} (hk1 : 1 ≤ k) {p : Parser σ I T E} {s s' : Source (Watched S) B} {w w' : σ}
    (h : Usable s) (hk : s.state.incomplete = true → max 1 s.request ≤ k)
    (hq : AsksWithin k p (ahead (Watched.rem rem) s))
    {r : Except (StreamError I E) T} (hr : retry chk p s w = .ok ((r, s'), w')) :
    ReadsBelow k s s' := by
  unfold retry at hr
  have hrun := loop_eq_ok.mp hr
  clear hr
  generalize ho : Res.ok ((r, s'), w') = o at hrun
  induction hrun with
  | @brk s w r0 w0 h1 =>
    cases ho
    rw [M.map_apply] at h1
    match hp : Source.parse chk p s w, h1 with
    | .ok ((r1, s1), w1), h1 =>
      have e1 := (Prod.mk.inj (Res.ok.inj h1)).1
      have : s1 = s' := by
        rcases r1 with e | t
        · cases e <;> cases e1 <;> rfl
        · cases e1; rfl
      subst this
      exact (turn hd chk h hk hp).1
  | panic => cases ho
  | ub => cases ho
  | @cont s w s1 w1 o h1 _ ih =>
    rw [M.map_apply] at h1
    match hp : Source.parse chk p s w, h1 with
    | .ok ((r1, s2), w2), h1 =>
      have ⟨hb0, hb⟩ := turn hd chk h hk hp
      have e1 := (Prod.mk.inj (Res.ok.inj h1)).1
      have key : (r1 = .error .retry ∨ ∃ e, r1 = .error (.ioError e)) ∧ s2 = s1 := by
        rcases r1 with e | t
        · cases e with
          | retry => cases e1; exact ⟨.inl rfl, rfl⟩
          | ioError e => cases e1; exact ⟨.inr ⟨_, rfl⟩, rfl⟩
          | _ => cases e1
        · cases e1
      obtain ⟨k1, rfl⟩ := key
      obtain ⟨k2, k3, k4, k5, k6⟩ := hb k1
      exact below_trans hb0 k3 k4 (ih k2 (k6 hk1 hq) (by rw [k5]; exact hq) ho)

omit [HonestSource S I] [LawfulBuffer B I] in
/-- An invariant of the retry loop. -/
theorem retry_inv {chk : Bool} {p : Parser σ I T E} (P : Source S B → Prop)
    (Q : Except (StreamError I E) T → Source S B → Prop)
    (hstep : ∀ s w r s' w', P s → s.parse chk p w = .ok ((r, s'), w') →
      Q r s' ∧ ((r = .error .retry ∨ ∃ e, r = .error (.ioError e)) → P s'))
    {s s' : Source S B} {w w' : σ} (h : P s)
    {r : Except (StreamError I E) T} (hr : retry chk p s w = .ok ((r, s'), w')) : Q r s' := by
  unfold retry at hr
  have hrun := loop_eq_ok.mp hr
  clear hr
  generalize ho : Res.ok ((r, s'), w') = o at hrun
  induction hrun with
  | @brk s w r0 w0 h1 =>
    cases ho
    rw [M.map_apply] at h1
    match hp : Source.parse chk p s w, h1 with
    | .ok ((r1, s1), w1), h1 =>
      have e1 := (Prod.mk.inj (Res.ok.inj h1)).1
      have : r1 = r ∧ s1 = s' := by
        rcases r1 with e | t
        · cases e <;> cases e1 <;> exact ⟨rfl, rfl⟩
        · cases e1; exact ⟨rfl, rfl⟩
      obtain ⟨rfl, rfl⟩ := this
      exact (hstep _ _ _ _ _ h hp).1
  | panic => cases ho
  | ub => cases ho
  | @cont s w s1 w1 o h1 _ ih =>
    rw [M.map_apply] at h1
    match hp : Source.parse chk p s w, h1 with
    | .ok ((r1, s2), w2), h1 =>
      have ⟨_, hb⟩ := hstep _ _ _ _ _ h hp
      have e1 := (Prod.mk.inj (Res.ok.inj h1)).1
      have key : (r1 = .error .retry ∨ ∃ e, r1 = .error (.ioError e)) ∧ s2 = s1 := by
        rcases r1 with e | t
        · cases e with
          | retry => cases e1; exact ⟨.inl rfl, rfl⟩
          | ioError e => cases e1; exact ⟨.inr ⟨_, rfl⟩, rfl⟩
          | _ => cases e1
        · cases e1
      obtain ⟨k1, rfl⟩ := key
      exact ih (hb k1) ho

omit [DataSource S I] [HonestSource S I] [LawfulBuffer B I] in
theorem attempt_value_state {chk : Bool} {p : Parser σ I T E} {s s' : Source S B} {w w' : σ} {t : T}
    (hr : s.attempt chk p w = .ok ((.ok t, s'), w')) : s'.state = s.state := by
  unfold Source.attempt at hr
  rw [M.bind_eq_ok] at hr
  obtain ⟨c, w1, _, hr⟩ := hr
  split at hr
  · cases hr
  · rw [M.bind_eq_ok] at hr
    obtain ⟨b, w2, _, hr⟩ := hr
    rw [M.bind_eq_ok] at hr
    obtain ⟨x, w3, _, hr⟩ := hr
    cases x with
    | data i t =>
      dsimp only at hr
      rw [M.bind_eq_ok] at hr
      obtain ⟨_, w4, _, hr⟩ := hr
      rw [M.bind_eq_ok] at hr
      obtain ⟨_, w5, _, hr⟩ := hr
      rw [M.bind_eq_ok] at hr
      obtain ⟨_, w6, _, hr⟩ := hr
      cases hr; rfl
    | error i t =>
      dsimp only at hr
      rw [M.bind_eq_ok] at hr
      obtain ⟨_, w4, _, hr⟩ := hr
      rw [M.bind_eq_ok] at hr
      obtain ⟨_, w5, _, hr⟩ := hr
      rw [M.bind_eq_ok] at hr
      obtain ⟨_, w6, _, hr⟩ := hr
      cases hr
    | incomplete n =>
      dsimp only at hr
      rw [M.bind_eq_ok] at hr
      obtain ⟨_, w4, _, hr⟩ := hr
      rw [M.bind_eq_ok] at hr
      obtain ⟨_, w5, _, hr⟩ := hr
      split at hr <;> cases hr

/-- Afterwards nothing is outstanding, if there is a value; and the source has only been read. -/
theorem retry_after {chk : Bool} {p : Parser σ I T E} {s s' : Source S B} {w w' : σ} (h : Usable s)
    (ha : s.state.automaticFill = true) {r : Except (StreamError I E) T}
    (hr : retry chk p s w = .ok ((r, s'), w')) :
    (∃ xs, Reads s.source xs s'.source) ∧ ((∃ t, r = .ok t) → s'.state.incomplete = false) := by
  refine retry_inv
    (fun x => Usable x ∧ x.state.automaticFill = true ∧ ∃ xs, Reads s.source xs x.source)
    (fun r x => (∃ xs, Reads s.source xs x.source) ∧ ((∃ t, r = .ok t) → x.state.incomplete = false))
    ?_ ⟨h, ha, [], .done⟩ hr
  clear hr h ha
  rintro x w r y w' ⟨h, ha, xs, hx⟩ hp
  rw [Source.parse_eq] at hp
  have att : ∀ z : Source S B, Usable z → z.state.automaticFill = true →
      z.state.incomplete = false → ∀ {zs}, Reads s.source zs z.source → z.attempt chk p w = .ok ((r, y), w') →
      ((∃ xs, Reads s.source xs y.source) ∧ ((∃ t, r = .ok t) → y.state.incomplete = false)) ∧
      ((r = .error .retry ∨ ∃ e, r = .error (.ioError e)) → Usable y ∧ y.state.automaticFill = true ∧
        ∃ xs, Reads s.source xs y.source) := by
    intro z hz hza hzi zs hr1 hatt
    obtain ⟨a1, a2, a3⟩ := Source.attempt_source chk p _ w w' hatt
    have hr1 : Reads s.source zs y.source := by rw [a1]; exact hr1
    refine ⟨⟨⟨_, hr1⟩, ?_⟩, ?_⟩
    · rintro ⟨t, rfl⟩
      rw [attempt_value_state hatt]
      exact hzi
    · rintro (rfl | ⟨e, rfl⟩)
      · obtain ⟨k2, n, m', k3, k4, k5⟩ := attempt_retry hz hatt
        exact ⟨by rw [k5]; exact hz, a2.trans hza, _, hr1⟩
      · exact absurd hatt (attempt_no_io hz)
  split at hp
  · rcases Source.fill_spec chk x h with ⟨h1, _⟩ | ⟨e, s1, ys, h1, h2⟩ | ⟨n, s1, ys, h1, h2⟩
    · rw [h1] at hp; cases hp
    · rw [h1, Res.bind_ok] at hp
      cases hp
      exact ⟨⟨⟨_, hx.trans h2.reads⟩, fun ⟨t, ht⟩ => by cases ht⟩,
        fun _ => ⟨h2.usable, by rw [h2.state]; exact ha, _, hx.trans h2.reads⟩⟩
    · rw [h1, Res.bind_ok] at hp
      exact att { s1 with state := s1.afterFill } h2.usable (by
        show s1.state.automaticFill = true
        rw [h2.state]; exact ha) rfl (hx.trans h2.reads) hp
  · rename_i hc
    rw [Res.bind_ok] at hp
    exact att x h ha (by rw [ha, Bool.and_true] at hc; simpa using hc) hx hp

omit [HonestSource S I] in
theorem reads_total {s s' : Watched S} {xs : List I} (h : Reads s xs s') :
    s'.total = s.total + xs.length ∧ s.total ≤ s'.total := by
  induction h with
  | done => exact ⟨rfl, Nat.le_refl _⟩
  | @step s xs s' k _ ih =>
    have e : (DataSource.read s k).2.total = s.total + (DataSource.read s k).1.items.length := rfl
    rw [e] at ih
    rw [List.length_append]
    omega

end Dialogue

end Chomp
