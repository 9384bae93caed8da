import Verif.Lemmas.Memory
import Verif.Props.Patient

/-
C89: the memory a `Source` with a `GrowingBuffer` takes.
-/

set_option linter.unusedSectionVars false

namespace Chomp.Props

open Spec Http
open GrowingBuffer (Grown)

section
variable {S I T E σ : Type} [DataSource S I] [HonestSource S I]

theorem parse_grown {chk : Bool} {R : Nat} {p : Parser σ I T E} {s s' : Source S (GrowingBuffer I)}
    (h : Usable s) {w w' : σ} {r : Except (StreamError I E) T} (hq : max 1 s.request ≤ R)
    (hm : (SourceCall.parse p).Modest chk R s w) (hr : s.parse chk p w = .ok ((r, s'), w')) :
    Grown R s.buffer s'.buffer ∧ max 1 s'.request ≤ R ∧ Usable s' := by
  obtain ⟨g1, g2, g3⟩ := Source.autofilled_grown (chk := chk) h hq
  rcases Source.parse_autofilled hr with ⟨e, _, rfl⟩ | ha
  · exact ⟨g1, by omega, g3⟩
  · obtain ⟨k1, k2, k3, k4, k5⟩ := Source.attempt_same g3 (R := R) (by omega) hm ha
    exact ⟨g1.then_same k1 k2 k3, by omega, k5⟩

theorem call_grown {chk : Bool} {R : Nat} (c : SourceCall σ I) {s s' : Source S (GrowingBuffer I)}
    (h : Usable s) {w w' : σ} (hq : max 1 s.request ≤ R) (hm : c.Modest chk R s w)
    (hr : c.run chk s w = .ok (s', w')) :
    Grown R s.buffer s'.buffer ∧ max 1 s'.request ≤ R ∧ Usable s' := by
  have same : ∀ {α : Type} (x : Res α) (f : α → Source S (GrowingBuffer I)), (∀ a, f a = s) →
      (M.lift (do let a ← x; .ok (f a)) : M σ _) w = .ok (s', w') →
      Grown R s.buffer s'.buffer ∧ max 1 s'.request ≤ R ∧ Usable s' := by
    intro α x f hf hx
    cases x with
    | ok a => cases hx; rw [hf a]; exact ⟨.same rfl rfl rfl rfl, hq, h⟩
    | panic => cases hx
    | ub => cases hx
    | div => cases hx
  cases c with
  | parse p =>
    unfold SourceCall.run at hr
    dsimp only at hr
    rw [M.bind_eq_ok] at hr
    obtain ⟨⟨r, s1⟩, w1, h1, hr⟩ := hr
    cases hr
    exact parse_grown h hq hm h1
  | fill =>
    unfold SourceCall.run at hr
    dsimp only at hr
    match hf : s.fill chk, hr with
    | .ok (r, s1), hr =>
      cases hr
      obtain ⟨g1, g2, g3⟩ := Source.fill_grown h hq hf
      exact ⟨g1, by dsimp only; omega, g3⟩
    | .panic, hr => cases hr
    | .ub, hr => cases hr
    | .div, hr => cases hr
  | len => exact same _ (fun _ => s) (fun _ => rfl) hr
  | isEmpty => exact same _ (fun _ => s) (fun _ => rfl) hr
  | buffer => exact same _ (fun _ => s) (fun _ => rfl) hr
  | reset => cases hr; exact ⟨.same rfl rfl rfl rfl, hq, h⟩
  | setAutofill v => cases hr; exact ⟨.same rfl rfl rfl rfl, hq, h⟩
  | read k =>
    have hk : k ≤ R := hm
    unfold SourceCall.run at hr
    dsimp only at hr
    match hf : s.read chk k, hr with
    | .ok (r, s1), hr =>
      cases hr
      rw [Source.read_eq chk k s h, Res.bind_eq_ok] at hf
      obtain ⟨⟨r1, s2⟩, h1, hf⟩ := hf
      obtain ⟨g1, g2, g3⟩ := Source.filled_grown h hk h1
      cases r1 with
      | error e => cases hf; exact ⟨g1, by dsimp only; omega, g3⟩
      | ok n =>
        dsimp only at hf
        have g3' : LawfulBuffer.Inv s2.buffer := g3
        rw [LawfulBuffer.deref g3', Res.bind_ok, Res.bind_eq_ok] at hf
        obtain ⟨b, hb, hf⟩ := hf
        cases hf
        have hc := GrowingBuffer.consume_fields hb
        obtain ⟨b', k1, k2, _⟩ := LawfulBuffer.consume (n := min k (LawfulBuffer.view s2.buffer).length) chk g3'
          (Nat.min_le_right _ _)
        rw [hb] at k1
        cases k1
        exact ⟨g1.then_same (.same hc.1 hc.2.1 hc.2.2.1 hc.2.2.2) hc.2.2.1 hc.2.2.2, by show max 1 s2.request ≤ R; omega, k2⟩
    | .panic, hr => cases hr
    | .ub, hr => cases hr
    | .div, hr => cases hr
  | fillBuf =>
    unfold SourceCall.run at hr
    dsimp only at hr
    match hf : s.fillBuf chk, hr with
    | .ok (r, s1), hr =>
      cases hr
      unfold Source.fillBuf at hf
      dsimp only at hf
      rw [Res.bind_eq_ok] at hf
      obtain ⟨⟨r1, s2⟩, h1, hf⟩ := hf
      obtain ⟨g1, g2, g3⟩ := Source.filled_grown h (Nat.le_refl _) h1
      have e : s1 = s2 := by
        cases r1 with
        | error e => cases hf; rfl
        | ok n =>
          dsimp only at hf
          rw [Res.bind_eq_ok] at hf
          obtain ⟨_, _, hf⟩ := hf
          cases hf; rfl
      subst e
      have hlen : s1.buffer.buffer.length = s.buffer.buffer.length := by
        rcases g1.size with hs | ⟨hs, _⟩
        · exact hs
        · exact absurd hs (Nat.lt_irrefl _)
      have hal := g1.allocs
      exact ⟨⟨g1.extra, g1.limit, .inl hlen, by dsimp only; rw [hlen] at hal ⊢; omega⟩, by dsimp only; omega, g3⟩
    | .panic, hr => cases hr
    | .ub, hr => cases hr
    | .div, hr => cases hr
  | consume n =>
    have hn : n ≤ (held s).length := hm
    have hu : LawfulBuffer.Inv s.buffer := h
    unfold SourceCall.run at hr
    dsimp only at hr
    match hf : s.consume chk n, hr with
    | .ok s1, hr =>
      cases hr
      unfold Source.consume at hf
      rw [Res.bind_eq_ok] at hf
      obtain ⟨b, hb, hf⟩ := hf
      cases hf
      have hc := GrowingBuffer.consume_fields hb
      obtain ⟨b', k1, k2, _⟩ := LawfulBuffer.consume (n := n) chk hu hn
      rw [hb] at k1
      cases k1
      exact ⟨.same hc.1 hc.2.1 hc.2.2.1 hc.2.2.2, hq, k2⟩
    | .panic, hr => cases hr
    | .ub, hr => cases hr
    | .div, hr => cases hr

/-- Whatever holds at the beginning and stays if the buffer grows holds at the end. -/
theorem calls_grown {chk : Bool} {R : Nat} (P : GrowingBuffer I → Prop)
    (hP : ∀ b b', P b → Grown R b b' → P b') (cs : List (SourceCall σ I)) :
    ∀ (s s' : Source S (GrowingBuffer I)) (w w' : σ), Usable s → max 1 s.request ≤ R →
      Modest chk R cs s w → P s.buffer → runCalls chk cs s w = .ok (s', w') → P s'.buffer := by
  induction cs with
  | nil => intro s s' w w' _ _ _ hs hr; cases hr; exact hs
  | cons c cs ih =>
    intro s s' w w' h hq hm hs hr
    unfold runCalls at hr
    rw [M.bind_eq_ok] at hr
    obtain ⟨s1, w1, h1, hr⟩ := hr
    obtain ⟨g1, g2, g3⟩ := call_grown c h hq hm.1 h1
    exact ih s1 s' w1 w' g3 g2 (hm.2 s1 w1 h1) (hP _ _ hs g1) hr

/-- Once there is space for everything which is asked for, the buffer does not grow any more. -/
theorem C89_settled (chk : Bool) (R : Nat) (cs : List (SourceCall σ I)) (s s' : Source S (GrowingBuffer I))
    (w w' : σ) (h : Usable s) (hq : max 1 s.request ≤ R) (hc : R ≤ s.capacity) (hm : Modest chk R cs s w)
    (hr : runCalls chk cs s w = .ok (s', w')) : s'.capacity = s.capacity := by
  refine calls_grown (R := R) (fun b => b.buffer.length = s.capacity) ?_ cs s s' w w' h hq hm rfl hr
  intro b b' hb hg
  rcases hg.size with hs | ⟨hs, _⟩
  · rw [hs, hb]
  · omega

/-- The capacity is at most twice what is asked for, and what the allocator adds. -/
theorem C89_bound (chk : Bool) (R X : Nat) (cs : List (SourceCall σ I)) (s s' : Source S (GrowingBuffer I))
    (w w' : σ) (h : Usable s) (hq : max 1 s.request ≤ R) (hx : ∀ k, s.buffer.extra k ≤ X)
    (hm : Modest chk R cs s w) (hr : runCalls chk cs s w = .ok (s', w')) :
    s'.capacity ≤ max s.capacity (2 * R + X) := by
  refine (calls_grown (R := R) (fun b => (∀ k, b.extra k ≤ X) ∧
    b.buffer.length ≤ max s.capacity (2 * R + X)) ?_ cs s s' w w' h hq hm
    ⟨hx, Nat.le_max_left _ _⟩ hr).2
  intro b b' ⟨h1, h2⟩ hg
  refine ⟨by rw [hg.extra]; exact h1, ?_⟩
  rcases hg.size with hs | ⟨hs, _, _, k, hk⟩
  · omega
  · have := h1 k
    omega

/-- The memory is moved at most `R` times, whatever the allocator does. -/
theorem C89_allocations (chk : Bool) (R : Nat) (cs : List (SourceCall σ I)) (s s' : Source S (GrowingBuffer I))
    (w w' : σ) (h : Usable s) (hq : max 1 s.request ≤ R) (hm : Modest chk R cs s w)
    (hr : runCalls chk cs s w = .ok (s', w')) :
    s'.buffer.allocs ≤ s.buffer.allocs + (R - s.capacity) := by
  have := calls_grown (R := R) (fun b => b.allocs + min R s.capacity ≤ s.buffer.allocs + min R b.buffer.length) ?_
    cs s s' w w' h hq hm (Nat.le_refl _) hr
  · have := this
    omega
  · intro b b' hb hg
    have := hg.allocs
    omega

/-- With a limit the capacity exceeds it by at most one request, and what the allocator adds. -/
theorem C89_limit (chk : Bool) (R X : Nat) (cs : List (SourceCall σ I)) (s s' : Source S (GrowingBuffer I))
    (w w' : σ) (h : Usable s) (hq : max 1 s.request ≤ R) (hx : ∀ k, s.buffer.extra k ≤ X)
    (hl : s.buffer.limit ≠ 0) (hm : Modest chk R cs s w) (hr : runCalls chk cs s w = .ok (s', w')) :
    s'.capacity ≤ max s.capacity (s.buffer.limit + R + X) := by
  refine (calls_grown (R := R) (fun b => (∀ k, b.extra k ≤ X) ∧ b.limit = s.buffer.limit ∧
    b.buffer.length ≤ max s.capacity (s.buffer.limit + R + X)) ?_ cs s s' w w' h hq hm
    ⟨hx, rfl, Nat.le_max_left _ _⟩ hr).2.2
  intro b b' ⟨h1, h2, h3⟩ hg
  refine ⟨by rw [hg.extra]; exact h1, by rw [hg.limit]; exact h2, ?_⟩
  rcases hg.size with hs | ⟨_, hs, _, k, hk⟩
  · omega
  · have := h1 k
    omega

end

/-! ### Reading one value after the other -/

section
variable {S I T E : Type} [DataSource S I] [HonestSource S I]

theorem Values.snoc {p : Parser Unit I T E} {b r r' : List I} {xs : List T} {t : T} (h : Values p b xs r)
    (ht : p ⟨.endOfInput, r⟩ () = .ok (.data ⟨.endOfInput, r'⟩ t, ())) : Values p b (xs ++ [t]) r' := by
  induction h with
  | nil => exact .cons ht .nil
  | cons h1 _ ih => exact .cons h1 (ih ht)

theorem Values.length {K : Nat} {p : Parser Unit I T E} (hp : Reader K p) {b r : List I} {xs : List T}
    (h : Values p b xs r) : r.length ≤ b.length := by
  induction h with
  | nil => exact Nat.le_refl _
  | cons h1 _ ih =>
    have := hp.consumes _ _ _ h1
    dsimp only at this
    omega

/-- One call in a session. -/
theorem session_step {rem : S → List I} {errs : S → Nat} (hd : Delivers S rem errs) {K R : Nat} {chk : Bool}
    {p : Parser Unit I T E} (hp : Reader K p) {s s' : Source S (GrowingBuffer I)} (h : Ready rem s)
    (hl : s.buffer.limit = 0) (hu : (ahead rem s).length + max 1 K ≤ 2 ^ 62)
    (hw : ∀ x y n, ahead rem s = x ++ y → p ⟨.default, x⟩ () = .ok (.incomplete n, ()) → x.length + n ≤ R)
    (hq : max 1 s.request ≤ R) {r : Except (StreamError I E) T}
    (hr : s.parse chk p () = .ok ((r, s'), ())) :
    Grown R s.buffer s'.buffer ∧
    ((∃ t, r = .ok t) ∨ r = .error .retry ∨ (∃ e, r = .error (.ioError e)) →
      Ready rem s' ∧ max 1 s'.request ≤ R ∧
      (ahead rem s' = ahead rem s ∨
        ∃ t, p ⟨.endOfInput, ahead rem s⟩ () = .ok (.data ⟨.endOfInput, ahead rem s'⟩ t, ()))) := by
  obtain ⟨g1, g2, g3⟩ := Source.autofilled_grown (chk := chk) h.usable hq
  -- the state in which the parser runs
  have hf : (Ready rem (autofilled chk s) ∧ ahead rem (autofilled chk s) = ahead rem s) ∧
      ((∃ e, s.fill chk = .ok (.error e, autofilled chk s) ∧ s.state.incomplete = true) ∨
        (autofilled chk s).state.incomplete = false) := by
    by_cases hi : s.state.incomplete = true
    · have ha : ∀ x s1, s.fill chk = .ok (x, s1) → autofilled chk s = s1 := by
        intro x s1 hx
        unfold autofilled
        rw [if_pos (by simp [hi, h.automatic]), hx]
      rcases fill_ready hd chk s h hi with ⟨e, s1, h1, h2, h3, _⟩ | ⟨n, s1, h1, h2, h3, h4, _⟩
      · rw [ha _ _ h1]
        exact ⟨⟨h2.1, h3⟩, .inl ⟨e, h1, hi⟩⟩
      · rw [ha _ _ h1]
        exact ⟨⟨h2.1, h3⟩, .inr h4⟩
    · have ha : autofilled chk s = s := by
        unfold autofilled
        rw [if_neg (by simp [hi])]
      rw [ha]
      exact ⟨⟨h, rfl⟩, .inr (by simpa using hi)⟩
  generalize hs1 : autofilled chk s = s1 at *
  obtain ⟨⟨f1, f2⟩, f3⟩ := hf
  rcases Source.parse_autofilled hr with ⟨e, rfl, rfl⟩ | ha
  · rw [hs1]
    exact ⟨g1, fun _ => ⟨f1, by omega, .inl f2⟩⟩
  · rw [hs1] at ha
    have fin : s1.state.incomplete = false := by
      rcases f3 with ⟨e, k1, k2⟩ | f3
      · rw [Source.parse_eq, if_pos (by simp [k2, h.automatic]), k1] at hr
        cases hr
        exact absurd ha (attempt_no_io g3)
      · exact f3
    -- what the parser leaves is no longer
    have hlen : ∀ r w', p ⟨modeOf s1, held s1⟩ () = .ok (r, w') →
        match r with
        | .data i _ => i.buf.length ≤ (held s1).length
        | .error b _ => b.length ≤ (held s1).length
        | .incomplete _ => True := by
      intro r w' hr
      have hg := Built.good hp.built.anything ⟨modeOf s1, held s1⟩ ()
      rw [hr] at hg
      cases r with
      | data i t =>
        obtain ⟨_, x, hx⟩ := hg
        have := congrArg List.length hx
        simp at this
        dsimp only
        omega
      | error b e =>
        obtain ⟨x, hx⟩ := hg
        have := congrArg List.length hx
        simp at this
        dsimp only
        omega
      | incomplete n => trivial
    have hg : ∃ R', Grown R' s1.buffer s'.buffer ∧ s'.buffer.buffer.length = s1.buffer.buffer.length ∧
        s'.buffer.allocs = s1.buffer.allocs := by
      obtain ⟨x, hx⟩ := hp.returns ⟨modeOf s1, held s1⟩
      cases x with
      | incomplete n =>
        obtain ⟨k1, k2, k3, _⟩ := Source.attempt_same g3 (R := max s1.request ((held s1).length + n))
          (Nat.le_max_left _ _) (fun r w' hr => by rw [hx] at hr; cases hr; exact Nat.le_max_right _ _) ha
        exact ⟨_, k1, k2, k3⟩
      | data i t =>
        obtain ⟨k1, k2, k3, _⟩ := Source.attempt_same g3 (R := s1.request) (Nat.le_refl _)
          (fun r w' hr => by
            have := hlen r w' hr
            rw [hx] at hr; cases hr; exact this) ha
        exact ⟨_, k1, k2, k3⟩
      | error b e =>
        obtain ⟨k1, k2, k3, _⟩ := Source.attempt_same g3 (R := s1.request) (Nat.le_refl _)
          (fun r w' hr => by
            have := hlen r w' hr
            rw [hx] at hr; cases hr; exact this) ha
        exact ⟨_, k1, k2, k3⟩
    obtain ⟨R', k1, k2, k3⟩ := hg
    refine ⟨⟨k1.extra.trans g1.extra, k1.limit.trans g1.limit, by rw [k2]; exact g1.size,
      by rw [k2, k3]; exact g1.allocs⟩, ?_⟩
    intro hgo
    by_cases hend : s1.state.endOfInput = true ∧ held s1 = []
    · rw [Source.attempt_end chk p s1 () g3 hend.1 hend.2] at ha
      cases ha
      rcases hgo with ⟨_, h⟩ | h | ⟨_, h⟩ <;> cases h
    · have hcan : LawfulBuffer.CanHold s1.buffer ((ahead rem s1).length + max 1 K) :=
        ⟨g1.limit.trans hl, by rw [f2]; exact hu⟩
      have hfit := C51_fits hp.built s1.buffer (ahead rem s1) hcan
        (by have : (2 : Nat) ^ 62 ≤ usizeMax := by decide
            rw [f2]; omega)
      rcases attempt_agrees chk rfl hp.built hp.built.anything s1 f1 fin hend hfit with
        ⟨s2, h1, h2, h3, h4, h5, h6, h7, h8⟩ | ⟨h1, h2, h3⟩
      · rw [h1] at ha
        cases ha
        obtain ⟨_, n, m, h9, h10, h11⟩ := attempt_retry g3 h1
        refine ⟨h7.1, ?_, .inl ?_⟩
        · have hb := hw (held s1) (rem s1.source) n f2.symm h9
          have hm : m ≤ (held s1).length + n := by
            unfold uaddB at h10
            split at h10
            · cases h10; exact Nat.le_refl _
            · split at h10
              · cases h10
              · cases h10; exact Nat.mod_le _ _
          rw [h11]
          show max 1 m ≤ R
          omega
        · unfold ahead
          rw [h5, h6]
          exact f2
      · rcases hgo with ⟨t, rfl⟩ | rfl | ⟨e, rfl⟩
        · rw [ha, f2] at h3
          obtain ⟨x, hx⟩ := hp.returns ⟨.endOfInput, ahead rem s⟩
          rw [hx] at h3
          cases x with
          | data i t' =>
            obtain ⟨s2, e1, e2, e3⟩ := h3
            cases e1
            have hmode := Reader.mode hp hx
            rw [← e2] at hmode
            refine ⟨e3.1, ?_, .inr ⟨t, hmode⟩⟩
            have hreq : s'.request = s1.request := by
              rw [Source.attempt_eq chk p s1 () g3 hend, Res.bind_eq_ok] at ha
              obtain ⟨⟨x, w1⟩, _, ha⟩ := ha
              cases x with
              | data j u =>
                unfold Source.finish at ha
                dsimp only at ha
                rw [Res.bind_eq_ok] at ha
                obtain ⟨_, _, ha⟩ := ha
                rw [Res.bind_eq_ok] at ha
                obtain ⟨_, _, ha⟩ := ha
                cases ha
                rfl
              | error j u =>
                unfold Source.finish at ha
                dsimp only at ha
                rw [Res.bind_eq_ok] at ha
                obtain ⟨_, _, ha⟩ := ha
                rw [Res.bind_eq_ok] at ha
                obtain ⟨_, _, ha⟩ := ha
                cases ha
              | incomplete n =>
                unfold Source.finish at ha
                dsimp only at ha
                rw [Res.bind_eq_ok] at ha
                obtain ⟨_, _, ha⟩ := ha
                split at ha <;> cases ha
            omega
          | error b e => obtain ⟨s2, e1, _⟩ := h3; cases e1
          | incomplete n => obtain ⟨s2, e1, _⟩ := h3; cases e1
        · exact absurd ha (h1 _ _)
        · exact absurd ha (h2 _ _ _)

/-- A whole session. -/
theorem session_grown {rem : S → List I} {errs : S → Nat} (hd : Delivers S rem errs) {K R : Nat} {chk : Bool}
    {p : Parser Unit I T E} (hp : Reader K p) (P : GrowingBuffer I → Prop)
    (hP : ∀ b b', P b → Grown R b b' → P b') {s s1 s2 : Source S (GrowingBuffer I)} (h : Ready rem s)
    (hl : s.buffer.limit = 0) (hu : (ahead rem s).length + max 1 K ≤ 2 ^ 62)
    (hw : Within R p (ahead rem s)) (hq : max 1 s.request ≤ R) (hs : Session chk p s s1) (h0 : P s.buffer)
    {r : Except (StreamError I E) T} (hr : s1.parse chk p () = .ok ((r, s2), ())) : P s2.buffer := by
  have main : Ready rem s1 ∧ s1.buffer.limit = 0 ∧ max 1 s1.request ≤ R ∧ P s1.buffer ∧
      ∃ xs, Values p (ahead rem s) xs (ahead rem s1) := by
    have step : ∀ {s1 s2 : Source S (GrowingBuffer I)} {r : Except (StreamError I E) T},
        (Ready rem s1 ∧ s1.buffer.limit = 0 ∧ max 1 s1.request ≤ R ∧ P s1.buffer ∧
          ∃ xs, Values p (ahead rem s) xs (ahead rem s1)) → s1.parse chk p () = .ok ((r, s2), ()) →
        (∃ t, r = .ok t) ∨ r = .error .retry ∨ (∃ e, r = .error (.ioError e)) →
        (Ready rem s2 ∧ s2.buffer.limit = 0 ∧ max 1 s2.request ≤ R ∧ P s2.buffer ∧
          ∃ xs, Values p (ahead rem s) xs (ahead rem s2)) := by
      intro s1 s2 r ⟨h1, h2, h3, h4, xs, h5⟩ hr hgo
      have := Values.length hp h5
      obtain ⟨g1, g2⟩ := session_step hd hp h1 h2 (by omega)
        (fun x y n hx hn => hw xs _ x y n h5 hx hn) h3 hr
      obtain ⟨k1, k2, k3⟩ := g2 hgo
      refine ⟨k1, g1.limit.trans h2, k2, hP _ _ h4 g1, ?_⟩
      rcases k3 with k3 | ⟨t, k3⟩
      · exact ⟨xs, by rw [k3]; exact h5⟩
      · exact ⟨xs ++ [t], Values.snoc h5 k3⟩
    clear hr
    induction hs with
    | start => exact ⟨h, hl, hq, h0, [], .nil⟩
    | value _ hv ih => exact step ih hv (.inl ⟨_, rfl⟩)
    | retry _ hv ih => exact step ih hv (.inr (.inl rfl))
    | ioError _ hv ih => exact step ih hv (.inr (.inr ⟨_, rfl⟩))
  obtain ⟨h1, h2, h3, h4, xs, h5⟩ := main
  have := Values.length hp h5
  obtain ⟨g1, _⟩ := session_step hd hp h1 h2 (by omega) (fun x y n hx hn => hw xs _ x y n h5 hx hn) h3 hr
  exact hP _ _ h4 g1

/-- With a parser which asks for no more than `R` items in total wherever it begins, the buffer does not grow
any more as soon as there is space for `R`, however much has been and will be read. -/
theorem C89_steady {rem : S → List I} {errs : S → Nat} (hd : Delivers S rem errs) {K R : Nat} (chk : Bool)
    {p : Parser Unit I T E} (hp : Reader K p) (s s1 s2 : Source S (GrowingBuffer I)) (h : Ready rem s)
    (hl : s.buffer.limit = 0) (hu : (ahead rem s).length + max 1 K ≤ 2 ^ 62)
    (hw : Within R p (ahead rem s)) (hq : max 1 s.request ≤ R) (hc : R ≤ s.capacity)
    (hs : Session chk p s s1) (r : Except (StreamError I E) T)
    (hr : s1.parse chk p () = .ok ((r, s2), ())) : s2.capacity = s.capacity := by
  refine session_grown hd hp (R := R) (fun b => b.buffer.length = s.capacity) ?_ h hl hu hw hq hs rfl hr
  intro b b' hb hg
  rcases hg.size with hs | ⟨hs, _⟩
  · rw [hs, hb]
  · omega

/-- A new source, with whatever it is called on the way: never more than twice as much, and what the allocator
adds, after at most `R` reallocations. -/
theorem C89_session {rem : S → List I} {errs : S → Nat} (hd : Delivers S rem errs) {K R X : Nat} (chk : Bool)
    {p : Parser Unit I T E} (hp : Reader K p) (src : S) (extra : Nat → Nat) (hx : ∀ k, extra k ≤ X)
    (hu : (rem src).length + max 1 K ≤ 2 ^ 62) (hw : Within R p (rem src)) (hR : 1 ≤ R)
    (s1 s2 : Source S (GrowingBuffer I))
    (hs : Session chk p (Source.withBuffer src (GrowingBuffer.withLimit extra 0)) s1)
    (r : Except (StreamError I E) T) (hr : s1.parse chk p () = .ok ((r, s2), ())) :
    s2.capacity ≤ 2 * R + X ∧ s2.buffer.allocs ≤ R := by
  have hn := C51_new rem src (GrowingBuffer.withLimit extra 0 : GrowingBuffer I)
    (GrowingBuffer.withLimit_inv _ _) ⟨rfl, by decide⟩
  have ha : ahead rem (Source.withBuffer src (GrowingBuffer.withLimit extra 0 : GrowingBuffer I)) = rem src :=
    hn.2
  have main := session_grown hd hp (R := R) (fun b => (∀ k, b.extra k ≤ X) ∧ b.buffer.length ≤ 2 * R + X ∧
    b.allocs ≤ min R b.buffer.length) ?_ hn.1 rfl (by rw [ha]; exact hu) (by rw [ha]; exact hw)
    (Nat.max_le.mpr ⟨hR, Nat.zero_le _⟩) hs ⟨hx, Nat.zero_le _, Nat.zero_le _⟩ hr
  · exact ⟨main.2.1, Nat.le_trans main.2.2 (Nat.min_le_left _ _)⟩
  intro b b' ⟨h1, h2, h3⟩ hg
  have h4 := hg.allocs
  refine ⟨by rw [hg.extra]; exact h1, ?_, by omega⟩
  rcases hg.size with hs | ⟨hs, _, _, k, hk⟩
  · omega
  · have := h1 k
    omega

/-- The condition under which a `FixedSizeBuffer` of size `R` is enough for records, as in C68. -/
theorem C89_records {K R : Nat} {p : Parser Unit I T E} (hp : RecordParser K p) (hK : max 1 K ≤ R)
    (data : List I) (xs : List T) (h : Records p R data xs []) : Within R p data := by
  intro ys rest x y n hv hx hn
  generalize he : ([] : List I) = e at h
  induction h generalizing ys with
  | nil =>
    subst he
    cases hv with
    | nil =>
      obtain ⟨rfl, _⟩ := List.append_eq_nil_iff.mp hx.symm
      have := C66_request rfl hp.built _ () () n hn
      simp only [List.length_nil]
      omega
    | cons h1 _ => exact absurd (hp.consumes _ _ _ h1) (Nat.not_lt_zero _)
  | cons h1 _ ih =>
    cases hv with
    | nil => exact h1.fits _ _ _ hx hn
    | cons k1 k2 =>
      have e := h1.parses.symm.trans k1
      simp only [Res.ok.injEq, Prod.mk.injEq, ParseResult.data.injEq, Input.mk.injEq, and_true, true_and] at e
      exact ih _ (e.1 ▸ k2) he

end

/-- Reading requests of at most `L` bytes each, any number of them, takes a buffer of at most `2 * L` bytes,
and what the allocator adds. -/
theorem C89_requests {S : Type} [DataSource S UInt8] [HonestSource S UInt8] {rem : S → List UInt8}
    {errs : S → Nat} (hd : Delivers S rem errs) {L X : Nat} (chk v : Bool) (hL : 5 ≤ L) (src : S)
    (extra : Nat → Nat) (hx : ∀ k, extra k ≤ X) (hu : (rem src).length + 5 ≤ 2 ^ 62)
    (xs : List (Request × List Header)) (h : Sequence (ShortRequest L) (rem src) xs)
    (s1 s2 : Source S (GrowingBuffer UInt8))
    (hs : Session chk (request v) (Source.withBuffer src (GrowingBuffer.withLimit extra 0)) s1)
    (r : Except (StreamError UInt8 (Error UInt8)) (Request × List Header))
    (hr : s1.parse chk (request v) () = .ok ((r, s2), ())) : s2.capacity ≤ 2 * L + X ∧ s2.buffer.allocs ≤ L :=
  C89_session hd chk (C88_record (request_record v)) src extra hx hu
    (C89_records (request_record v) hL _ _ ((request_records v L _ _).mpr h)) (by omega) s1 s2 hs r hr

/-! ### Examples -/

namespace MemoryEx

open RecordsEx

/-- Lines of at most three items, piece by piece: the buffer has never more than eight, if the allocator hands
out no more than it is asked for, and has been moved at most four times. -/
example (chk : Bool) (s1 s2 : Source (Script UInt8) (GrowingBuffer UInt8))
    (hs : Session chk line (Source.withBuffer file (GrowingBuffer.withLimit (fun _ => 0) 0)) s1)
    (r : Except (StreamError UInt8 (Error UInt8)) (List UInt8))
    (hr : s1.parse chk line () = .ok ((r, s2), ())) : s2.capacity ≤ 8 ∧ s2.buffer.allocs ≤ 4 :=
  C89_session Script.delivers (X := 0) chk (C88_record line_record) file _ (fun _ => Nat.le_refl _) (by decide)
    (C89_records line_record (by decide) _ _ file_records) (by decide) s1 s2 hs r hr

/-- There are such states: after two calls which return `Retry` the first line is returned. -/
example : ∃ s1 s2, Session true line
      (Source.withBuffer file (GrowingBuffer.withLimit (fun _ => 0) 0 : GrowingBuffer UInt8)) s1 ∧
    s1.parse true line () = .ok ((.ok [65, 66], s2), ()) ∧ s2.capacity = 3 :=
  ⟨_, _, .retry (.retry .start (Source.parse_of_fuel 5 rfl)) (Source.parse_of_fuel 5 rfl),
    Source.parse_of_fuel 5 rfl, rfl⟩

/-- A source with space for four, holding `A`. -/
def four : Source (Script UInt8) (GrowingBuffer UInt8) :=
  ⟨file, ⟨[some 65, none, none, none], 4, 1, 0, 0, fun _ => 0, 1⟩, 0, ⟨true, false, true⟩⟩

theorem four_usable : Usable four :=
  (GrowingBuffer.inv_of (b := four.buffer) (data := [65]) ⟨by decide, rfl, rfl, by decide⟩ rfl).1

/-- Filling it, parsing, and parsing again without filling does not make it larger. -/
theorem four_modest : Modest true 4 [.fill, .parse line, .setAutofill false, .parse line] four () := by
  refine ⟨trivial, fun s1 w1 h1 => ?_⟩
  cases h1
  refine ⟨fun r w h => ?_, fun s1 w1 h1 => ?_⟩
  · cases h
    decide
  cases h1
  refine ⟨trivial, fun s1 w1 h1 => ?_⟩
  cases h1
  refine ⟨fun r w h => ?_, fun s1 w1 h1 => trivial⟩
  cases h
  decide

example : ∃ s', runCalls true [.fill, .parse line, .setAutofill false, .parse line] four () = .ok (s', ()) ∧
    s'.capacity = 4 := by
  refine ⟨_, rfl, ?_⟩
  exact C89_settled true 4 _ four _ () () four_usable (by decide) (Nat.le_refl _) four_modest rfl

end MemoryEx

end Chomp.Props
