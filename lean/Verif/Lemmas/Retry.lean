import Verif.Lemmas.Source
import Verif.Lemmas.Ext
import Verif.Spec.Retry

set_option linter.unusedSectionVars false

namespace Chomp

open Spec

variable {S B I : Type} [DataSource S I] [HonestSource S I] [Buffer B I] [LawfulBuffer B I]

omit [HonestSource S I] in
theorem modeOf_end {s : Source S B} (h : s.state.endOfInput = true) : modeOf s = .endOfInput := by
  simp [modeOf, h]

omit [HonestSource S I] in
theorem modeOf_default {s : Source S B} (h : s.state.endOfInput = false) : modeOf s = .default := by
  simp [modeOf, h]

omit [HonestSource S I] [LawfulBuffer B I] in
/-- One turn of the retry loop. -/
theorem retry_eq (chk : Bool) (p : Parser σ I T E) (s : Source S B) (w : σ) :
    retry chk p s w = s.parse chk p w >>= fun x =>
      match again x.1 with
      | .inl s' => retry chk p s' x.2
      | .inr r => .ok (r, x.2) := by
  show loop _ s w = _
  rw [loop_apply, M.map_apply]
  cases s.parse chk p w with
  | ok x =>
    obtain ⟨x, w1⟩ := x
    simp only [Res.bind_ok]
    cases again x <;> rfl
  | _ => rfl

omit [HonestSource S I] in
theorem canHold_usize {b : B} {t : Nat} (h : LawfulBuffer.Inv b) (hl : (LawfulBuffer.view b).length ≤ t)
    (hc : LawfulBuffer.CanHold b t) : t ≤ usizeMax := by
  rw [show t = (LawfulBuffer.view b).length + (t - (LawfulBuffer.view b).length) by omega] at hc
  obtain ⟨b', h1, h2⟩ := LawfulBuffer.request_fits true h hc
  rcases LawfulBuffer.request true (t - (LawfulBuffer.view b).length) h with hp | ⟨b2, g1, g2, g3, _⟩
  · rw [hp] at h1; cases h1
  · rw [h1] at g1
    cases g1
    have := LawfulBuffer.size g2
    rw [g3] at this
    omega

theorem Spec.LastRead.errs {rem : S → List I} {errs : S → Nat} (hd : Delivers S rem errs)
    {s s' : S} {xs : List I} {k : Nat} {e : IoError} (h : LastRead s xs k (.error e) s') :
    errs s' < errs s := by
  obtain ⟨s1, h1, h2, h3, _⟩ := h
  have a := (h1.rem hd).2
  have b := (hd.err s1 k e h3).2
  rw [h2] at b
  exact Nat.lt_of_lt_of_le b a

theorem Spec.LastRead.drained {rem : S → List I} {errs : S → Nat} (hd : Delivers S rem errs)
    {s s' : S} {xs : List I} {k : Nat} (hk : 0 < k) (h : LastRead s xs k (.ok 0) s') :
    rem s' = [] := by
  obtain ⟨s1, h1, h2, h3, h4⟩ := h
  obtain ⟨a, _, b⟩ := hd.ok s1 k 0 h3
  rw [h2, h4, List.nil_append] at a
  apply Classical.byContradiction
  intro hne
  have := b hk (by rw [a]; exact hne)
  omega

/-- What the parser does on the buffer, seen from the whole of the data. -/
theorem attempt_agrees {rem : S → List I} (chk : Bool) {p : Parser Unit I T E}
    {a : Allow} (ha : a.chunkDependent = false) (hp : Built a p) (hp' : Built everything p)
    (s : Source S B) (h : Ready rem s) (hi : s.state.incomplete = false)
    (hne : ¬ (s.state.endOfInput = true ∧ held s = [])) (hfit : Fits p s.buffer (ahead rem s)) :
    (∃ s', s.attempt chk p () = .ok ((.error .retry, s'), ()) ∧ s.state.endOfInput = false ∧
      s'.state.incomplete = true ∧ (held s').length < s'.request ∧ held s' = held s ∧
      s'.source = s.source ∧ Continues rem s s' ∧
      s'.state.automaticFill = true) ∨
    ((∀ s1 w1, s.attempt chk p () ≠ .ok ((.error .retry, s1), w1)) ∧
      (∀ e s1 w1, s.attempt chk p () ≠ .ok ((.error (.ioError e), s1), w1)) ∧
      Agrees rem s (p ⟨.endOfInput, ahead rem s⟩ ()) (s.attempt chk p ())) := by
  have hext := Built.ext ha hp
  match hf : p ⟨modeOf s, held s⟩ () with
  | .ok (.data i t, ()) =>
    right
    obtain ⟨b, h1, h2, h3, h4, h5, h6, h7⟩ := Source.attempt_data chk hp' s () () h.usable hne hf
    rw [h1]
    refine ⟨(fun _ _ h => by cases h), (fun _ _ _ h => by cases h), ?_⟩
    have key : p ⟨.endOfInput, ahead rem s⟩ () =
        .ok (.data ⟨.endOfInput, i.buf ++ rem s.source⟩ t, ()) := by
      cases he : s.state.endOfInput with
      | true =>
        rw [modeOf_end he] at hf h2
        unfold ahead
        rw [h.endOfInput he, List.append_nil, List.append_nil, hf, ← h2]
      | false =>
        rw [modeOf_default he] at hf
        have := hext (held s) .endOfInput (rem s.source) ()
        rw [hf] at this
        exact this.2
    rw [key]
    refine ⟨_, rfl, ?_, ⟨h3, h.automatic, h.endOfInput, fun hi' => ?_⟩, h7⟩
    · show LawfulBuffer.view b ++ _ = _
      rw [h4]
    · exact h7 _ (h.request hi')
  | .ok (.error y e, ()) =>
    right
    obtain ⟨b, h1, h3, h4, h5, h6, h7⟩ := Source.attempt_error chk hp' s () () h.usable hne hf
    rw [h1]
    refine ⟨(fun _ _ h => by cases h), (fun _ _ _ h => by cases h), ?_⟩
    have key : p ⟨.endOfInput, ahead rem s⟩ () = .ok (.error (y ++ rem s.source) e, ()) := by
      cases he : s.state.endOfInput with
      | true =>
        rw [modeOf_end he] at hf
        unfold ahead
        rw [h.endOfInput he, List.append_nil, List.append_nil, hf]
      | false =>
        rw [modeOf_default he] at hf
        have := hext (held s) .endOfInput (rem s.source) ()
        rw [hf] at this
        exact this
    rw [key]
    refine ⟨{ s with buffer := b }, ?_, ?_, ⟨h3, h.automatic, h.endOfInput, fun hi' => ?_⟩, h7⟩
    · show _ = Res.ok ((Except.error (StreamError.parseError (LawfulBuffer.view b) e), _), ())
      rw [h4]
    · show LawfulBuffer.view b ++ _ = _
      rw [h4]
    · exact h7 _ (h.request hi')
  | .ok (.incomplete n, ()) =>
    rw [Source.attempt_eq chk p s () h.usable hne, hf, Res.bind_ok]
    unfold Source.finish
    dsimp only
    cases he : s.state.endOfInput with
    | true =>
      right
      rw [modeOf_end he] at hf
      have hfull : ahead rem s = held s := by
        unfold ahead; rw [h.endOfInput he, List.append_nil]
      have := hfit.2 n (by rw [hfull]; exact hf)
      rw [hfull] at this
      rw [uaddB_ok this]
      simp only [Res.bind_ok, if_true]
      refine ⟨by simp, by simp, ?_⟩
      rw [hfull, hf]
      refine ⟨{ s with request := (held s).length + n }, by rw [hfull], hfull.symm ▸ hfull,
        ⟨h.usable, h.automatic, h.endOfInput, ?_⟩, fun _ h => h⟩
      intro hi'
      simp [hi] at hi'
    | false =>
      left
      rw [modeOf_default he] at hf
      have hc := hfit.1 (held s) (rem s.source) n rfl hf
      have hu : (held s).length + n ≤ usizeMax := canHold_usize (b := s.buffer) h.usable
        (Nat.le_add_right _ _) hc
      have hn : 1 ≤ n := by
        have := hext (held s) .default [] ()
        rw [hf] at this
        exact this.1
      rw [uaddB_ok hu]
      simp only [Res.bind_ok, Bool.false_eq_true, if_false]
      refine ⟨_, rfl, trivial, rfl, ?_, rfl, rfl, ⟨⟨h.usable, h.automatic, nofun, ?_⟩, fun _ h => h⟩,
        h.automatic⟩
      · show (held s).length < (held s).length + n; omega
      · intro _
        have : max 1 ((held s).length + n) = (held s).length + n := by omega
        show LawfulBuffer.CanHold s.buffer (max 1 ((held s).length + n))
        rw [this]
        exact hc
  | .panic =>
    right
    rw [Source.attempt_eq chk p s () h.usable hne, hf]
    refine ⟨by simp, by simp, ?_⟩
    have key : p ⟨.endOfInput, ahead rem s⟩ () = .panic := by
      cases he : s.state.endOfInput with
      | true =>
        rw [modeOf_end he] at hf
        unfold ahead; rw [h.endOfInput he, List.append_nil, hf]
      | false =>
        rw [modeOf_default he] at hf
        have := hext (held s) .endOfInput (rem s.source) ()
        rw [hf] at this
        exact this
    rw [key]
    rfl
  | .ub =>
    right
    rw [Source.attempt_eq chk p s () h.usable hne, hf]
    refine ⟨by simp, by simp, ?_⟩
    have key : p ⟨.endOfInput, ahead rem s⟩ () = .ub := by
      cases he : s.state.endOfInput with
      | true =>
        rw [modeOf_end he] at hf
        unfold ahead; rw [h.endOfInput he, List.append_nil, hf]
      | false =>
        rw [modeOf_default he] at hf
        have := hext (held s) .endOfInput (rem s.source) ()
        rw [hf] at this
        exact this
    rw [key]
    rfl
  | .div =>
    right
    rw [Source.attempt_eq chk p s () h.usable hne, hf]
    refine ⟨by simp, by simp, ?_⟩
    have key : p ⟨.endOfInput, ahead rem s⟩ () = .div := by
      cases he : s.state.endOfInput with
      | true =>
        rw [modeOf_end he] at hf
        unfold ahead; rw [h.endOfInput he, List.append_nil, hf]
      | false =>
        rw [modeOf_default he] at hf
        have := hext (held s) .endOfInput (rem s.source) ()
        rw [hf] at this
        exact this
    rw [key]
    rfl

/-- Agreement after some more reading. -/
theorem Spec.Agrees.earlier {rem : S → List I} {s s1 : Source S B} (ha : ahead rem s = ahead rem s1)
    (hc : ∀ t, LawfulBuffer.CanHold s.buffer t → LawfulBuffer.CanHold s1.buffer t)
    {x : Res (ParseResult I T E × Unit)} {y : Res ((Except (StreamError I E) T × Source S B) × Unit)}
    (h : Agrees rem s1 x y) : Agrees rem s x y := by
  match x, h with
  | .ok (.data i t, _), ⟨s', h1, h2, h3, h4⟩ => exact ⟨s', h1, h2, h3, fun t ht => h4 t (hc t ht)⟩
  | .ok (.error b e, _), ⟨s', h1, h2, h3, h4⟩ => exact ⟨s', h1, h2, h3, fun t ht => h4 t (hc t ht)⟩
  | .ok (.incomplete n, _), ⟨s', h1, h2, h3, h4⟩ =>
    exact ⟨s', by rw [h1, ha], by rw [h2, ha], h3, fun t ht => h4 t (hc t ht)⟩
  | .panic, h => exact h
  | .ub, h => exact h
  | .div, h => exact h

omit [HonestSource S I] in
/-- An outcome which ends the loop. -/
theorem final_bind {p : Parser σ I T E} {chk : Bool}
    {x : Res ((Except (StreamError I E) T × Source S B) × σ)}
    (h1 : ∀ s1 w1, x ≠ .ok ((.error .retry, s1), w1))
    (h2 : ∀ e s1 w1, x ≠ .ok ((.error (.ioError e), s1), w1)) :
    (x >>= fun x =>
      match again x.1 with
      | .inl s' => retry chk p s' x.2
      | .inr r => .ok (r, x.2)) = x := by
  match x with
  | .ok ((.ok t, s), w) => rfl
  | .ok ((.error .retry, s), w) => exact absurd rfl (h1 s w)
  | .ok ((.error (.ioError e), s), w) => exact absurd rfl (h2 e s w)
  | .ok ((.error .endOfInput, s), w) => rfl
  | .ok ((.error (.incomplete _), s), w) => rfl
  | .ok ((.error (.parseError _ _), s), w) => rfl
  | .panic => rfl
  | .ub => rfl
  | .div => rfl

/-- Reading before the parser runs. -/
theorem fill_ready {rem : S → List I} {errs : S → Nat} (hd : Delivers S rem errs) (chk : Bool)
    (s : Source S B) (h : Ready rem s) (hi : s.state.incomplete = true) :
    (∃ e s1, s.fill chk = .ok (.error e, s1) ∧ Continues rem s s1 ∧ ahead rem s1 = ahead rem s ∧
      s1.state = s.state ∧ (held s1).length < max 1 s1.request ∧
      errs s1.source < errs s.source ∧ (rem s1.source).length ≤ (rem s.source).length) ∨
    (∃ n s1, s.fill chk = .ok (.ok n, s1) ∧ Continues rem s s1 ∧ ahead rem s1 = ahead rem s ∧
      s1.state.incomplete = false ∧ errs s1.source ≤ errs s.source ∧
      (s1.state.endOfInput = false → held s1 ≠ [] ∧ ((held s).length < max 1 s.request →
        (rem s1.source).length < (rem s.source).length)) ∧
      (rem s1.source).length ≤ (rem s.source).length) := by
  have hc := h.request hi
  rcases Source.fill_spec chk s h.usable with ⟨_, h2, h3⟩ | ⟨e, s1, xs, h1, h2⟩ | ⟨n, s1, xs, h1, h2⟩
  · exfalso
    have hv : (LawfulBuffer.view s.buffer).length = (held s).length := rfl
    rw [show max 1 s.request = (LawfulBuffer.view s.buffer).length +
      (max 1 s.request - (held s).length) by omega] at hc
    obtain ⟨b', h4, _⟩ := LawfulBuffer.request_fits chk (b := s.buffer) h.usable hc
    rw [h3] at h4
    cases h4
  · left
    have hr := h2.reads.rem hd
    obtain ⟨g1, g2⟩ := h2.err e rfl
    refine ⟨e, s1, h1, ⟨⟨h2.usable, by rw [h2.state]; exact h.automatic, ?_, ?_⟩, h2.hold⟩, ?_, h2.state,
      by rw [h2.request_eq]; exact g1, g2.errs hd, ?_⟩
    · intro he
      rw [h2.state] at he
      have := h.endOfInput he
      rw [hr.1] at this
      exact (List.append_eq_nil_iff.mp this).2
    · intro _; rw [h2.request_eq]; exact h2.hold _ hc
    · unfold ahead; rw [h2.held, hr.1, List.append_assoc]
    · rw [hr.1, List.length_append]; omega
  · right
    have hr := h2.reads.rem hd
    obtain ⟨g1, g2⟩ := h2.ok n rfl
    refine ⟨n, _, h1, ⟨⟨h2.usable, ?_, ?_, ?_⟩, h2.hold⟩, ?_, rfl, hr.2, ?_, ?_⟩
    · show s1.state.automaticFill = true
      rw [h2.state]; exact h.automatic
    · intro he
      change (!decide ((held s1).length ≥ max 1 s1.request)) = true at he
      rw [h2.request_eq] at he
      have he : (held s1).length < max 1 s.request := by simpa using he
      rcases g2 with g2 | ⟨_, g3⟩
      · omega
      · rcases h2.fits hc with g4 | g4
        · have := congrArg List.length h2.held
          rw [List.length_append] at this
          omega
        · exact g3.drained hd (by omega)
    · intro hi'; cases hi'
    · show held s1 ++ rem s1.source = _
      unfold ahead; rw [h2.held, hr.1, List.append_assoc]
    · intro he
      change (!decide ((held s1).length ≥ max 1 s1.request)) = false at he
      rw [h2.request_eq] at he
      have he : max 1 s.request ≤ (held s1).length := by simpa using he
      refine ⟨?_, fun hlt => ?_⟩
      · intro h0
        change held s1 = [] at h0
        rw [h0] at he
        simp at he
      · have := congrArg List.length h2.held
        rw [List.length_append] at this
        show (rem s1.source).length < _
        rw [hr.1, List.length_append]; omega
    · show (rem s1.source).length ≤ _
      rw [hr.1, List.length_append]; omega

/-- What is left to do: reading, and running the parser once before the next read. -/
def todo (rem : S → List I) (errs : S → Nat) (s : Source S B) : Nat :=
  2 * (errs s.source + (rem s.source).length) +
    if s.state.incomplete = true ∧ (held s).length < max 1 s.request then 0 else 1

theorem Spec.Continues.fits {rem : S → List I} {s s1 : Source S B} (h : Continues rem s s1)
    {p : Parser Unit I T E} {full : List I} (hf : Fits p s.buffer full) : Fits p s1.buffer full :=
  ⟨fun x y n hx hn => h.2 _ (hf.1 x y n hx hn), hf.2⟩

theorem retry_agrees {rem : S → List I} {errs : S → Nat} (hd : Delivers S rem errs) (chk : Bool)
    {p : Parser Unit I T E} {a : Allow} (ha : a.chunkDependent = false) (hp : Built a p)
    (hp' : Built everything p) (s : Source S B) (h : Ready rem s) (hne : ahead rem s ≠ [])
    (hfit : Fits p s.buffer (ahead rem s)) :
    Agrees rem s (p ⟨.endOfInput, ahead rem s⟩ ()) (retry chk p s ()) := by
  generalize hm : todo rem errs s = m
  induction m using Nat.strongRecOn generalizing s with
  | _ m ih =>
    rw [retry_eq, Source.parse_eq]
    -- running the parser on `s1`, which has been reached by reading
    have run : ∀ s1 : Source S B, Continues rem s s1 → ahead rem s1 = ahead rem s →
        s1.state.incomplete = false →
        (s1.state.endOfInput = false → 2 * (errs s1.source + (rem s1.source).length) < m) →
        Agrees rem s (p ⟨.endOfInput, ahead rem s⟩ ()) (s1.attempt chk p () >>= fun x =>
          match again x.1 with
          | .inl s' => retry chk p s' x.2
          | .inr r => .ok (r, x.2)) := by
      intro s1 hc ha1 hi hlt
      have hne1 : ¬ (s1.state.endOfInput = true ∧ held s1 = []) := by
        rintro ⟨k1, k2⟩
        apply hne
        rw [← ha1]
        unfold ahead
        rw [k2, hc.1.endOfInput k1]
        rfl
      have hfit1 : Fits p s1.buffer (ahead rem s1) := by rw [ha1]; exact hc.fits hfit
      rcases attempt_agrees chk ha hp hp' s1 hc.1 hi hne1 hfit1 with
        ⟨s', h1, h2, h3, h4, h5, h6, h7, h8⟩ | ⟨h1, h2, h3⟩
      · rw [h1]
        simp only [Res.bind_ok, again]
        have ha2 : ahead rem s = ahead rem s' := by
          rw [← ha1]; unfold ahead; rw [h5, h6]
        have hcs : ∀ t, LawfulBuffer.CanHold s.buffer t → LawfulBuffer.CanHold s'.buffer t :=
          fun t ht => h7.2 t (hc.2 t ht)
        refine Agrees.earlier ha2 hcs ?_
        rw [ha2]
        refine ih (todo rem errs s') ?_ s' h7.1 (by rw [← ha2]; exact hne) ?_ rfl
        · unfold todo
          rw [if_pos ⟨h3, by omega⟩, h6]
          have := hlt h2
          omega
        · rw [← ha2]
          exact Spec.Continues.fits (s := s) ⟨h7.1, hcs⟩ hfit
      · rw [final_bind h1 h2]
        rw [ha1] at h3
        exact Agrees.earlier ha1.symm hc.2 h3
    by_cases hi : s.state.incomplete = true
    · rw [if_pos (by simp [hi, h.automatic])]
      rcases fill_ready hd chk s h hi with ⟨e, s1, h1, h2, h3, h4, h5, h6, h7⟩ |
        ⟨n, s1, h1, h2, h3, h4, h5, h6, h7⟩
      · rw [h1]
        simp only [Res.bind_ok, again]
        refine Agrees.earlier h3.symm h2.2 ?_
        rw [← h3]
        refine ih (todo rem errs s1) ?_ s1 h2.1 (by rw [h3]; exact hne)
          (by rw [h3]; exact h2.fits hfit) rfl
        rw [← hm]
        unfold todo
        rw [if_pos ⟨by rw [h4]; exact hi, h5⟩]
        omega
      · rw [h1]
        simp only [Res.bind_ok]
        refine run s1 h2 h3 h4 (fun he => ?_)
        rw [← hm]
        unfold todo
        obtain ⟨_, k2⟩ := h6 he
        by_cases hlt : (held s).length < max 1 s.request
        · have := k2 hlt
          omega
        · rw [if_neg (fun hh => hlt hh.2)]
          omega
    · rw [if_neg (by simp [hi])]
      simp only [Res.bind_ok]
      refine run s ⟨h, fun _ ht => ht⟩ rfl (by simpa using hi) (fun _ => ?_)
      rw [← hm]
      unfold todo
      rw [if_neg (fun hh => hi hh.1)]
      omega

/-! ### any parser -/

omit [HonestSource S I] in
/-- `Retry` comes from an incomplete result on a slice which is not the last. -/
theorem attempt_retry {chk : Bool} {p : Parser σ I T E} {s s' : Source S B} (h : Usable s) {w w' : σ}
    (hr : s.attempt chk p w = .ok ((.error .retry, s'), w')) :
    s.state.endOfInput = false ∧ ∃ n m, p ⟨.default, held s⟩ w = .ok (.incomplete n, w') ∧
      uaddB chk (held s).length n = .ok m ∧
      s' = { s with request := m, state := { s.state with incomplete := true } } := by
  by_cases hne : s.state.endOfInput = true ∧ held s = []
  · rw [Source.attempt_end chk p s w h hne.1 hne.2] at hr
    cases hr
  · rw [Source.attempt_eq chk p s w h hne] at hr
    match hf : p ⟨modeOf s, held s⟩ w with
    | .ok (.data i t, w1) =>
      rw [hf, Res.bind_ok] at hr
      unfold Source.finish at hr
      dsimp only at hr
      cases hu : usubB chk (held s).length i.buf.length with
      | ok d =>
        rw [hu, Res.bind_ok] at hr
        cases hb : Buffer.consume chk d s.buffer with
        | ok b => rw [hb] at hr; cases hr
        | _ => rw [hb] at hr; cases hr
      | _ => rw [hu] at hr; cases hr
    | .ok (.error y e, w1) =>
      rw [hf, Res.bind_ok] at hr
      unfold Source.finish at hr
      dsimp only at hr
      cases hu : usubB chk (held s).length y.length with
      | ok d =>
        rw [hu, Res.bind_ok] at hr
        cases hb : Buffer.consume chk d s.buffer with
        | ok b => rw [hb] at hr; cases hr
        | _ => rw [hb] at hr; cases hr
      | _ => rw [hu] at hr; cases hr
    | .ok (.incomplete n, w1) =>
      rw [hf, Res.bind_ok] at hr
      unfold Source.finish at hr
      dsimp only at hr
      cases hu : uaddB chk (held s).length n with
      | ok m =>
        rw [hu, Res.bind_ok] at hr
        cases he : s.state.endOfInput with
        | true => simp [he] at hr
        | false =>
          simp only [he, Bool.false_eq_true, if_false] at hr
          cases hr
          rw [modeOf_default he] at hf
          exact ⟨rfl, n, _, hf, hu, by simp [he]⟩
      | _ => rw [hu] at hr; cases hr
    | .panic => rw [hf] at hr; cases hr
    | .ub => rw [hf] at hr; cases hr
    | .div => rw [hf] at hr; cases hr

omit [HonestSource S I] in
/-- Running the parser does no I/O. -/
theorem attempt_no_io {chk : Bool} {p : Parser σ I T E} {s s' : Source S B} (h : Usable s) {w w' : σ}
    {e : IoError} : s.attempt chk p w ≠ .ok ((.error (.ioError e), s'), w') := by
  intro hr
  by_cases hne : s.state.endOfInput = true ∧ held s = []
  · rw [Source.attempt_end chk p s w h hne.1 hne.2] at hr
    cases hr
  · rw [Source.attempt_eq chk p s w h hne] at hr
    match hf : p ⟨modeOf s, held s⟩ w with
    | .ok (.data i t, w1) =>
      rw [hf, Res.bind_ok] at hr
      unfold Source.finish at hr
      dsimp only at hr
      cases hu : usubB chk (held s).length i.buf.length with
      | ok d =>
        rw [hu, Res.bind_ok] at hr
        cases hb : Buffer.consume chk d s.buffer with
        | ok b => rw [hb] at hr; cases hr
        | _ => rw [hb] at hr; cases hr
      | _ => rw [hu] at hr; cases hr
    | .ok (.error y e, w1) =>
      rw [hf, Res.bind_ok] at hr
      unfold Source.finish at hr
      dsimp only at hr
      cases hu : usubB chk (held s).length y.length with
      | ok d =>
        rw [hu, Res.bind_ok] at hr
        cases hb : Buffer.consume chk d s.buffer with
        | ok b => rw [hb] at hr; cases hr
        | _ => rw [hb] at hr; cases hr
      | _ => rw [hu] at hr; cases hr
    | .ok (.incomplete n, w1) =>
      rw [hf, Res.bind_ok] at hr
      unfold Source.finish at hr
      dsimp only at hr
      cases hu : uaddB chk (held s).length n with
      | ok m =>
        rw [hu, Res.bind_ok] at hr
        cases he : s.state.endOfInput with
        | true => simp [he] at hr
        | false => simp [he] at hr
      | _ => rw [hu] at hr; cases hr
    | .panic => rw [hf] at hr; cases hr
    | .ub => rw [hf] at hr; cases hr
    | .div => rw [hf] at hr; cases hr

/-- A loop which can always go on does not end. -/
theorem loop_spins {S R σ : Type} {step : S → M σ (S ⊕ R)} (P : S → σ → Prop)
    (h : ∀ s w, P s w → ∃ s' w', step s w = .ok (.inl s', w') ∧ P s' w') {s : S} {w : σ} (hs : P s w) :
    loop step s w = .div := by
  apply Classical.byContradiction
  intro hne
  have hrun := (loop_eq_iff hne).mp rfl
  generalize loop step s w = o at hrun
  clear hne
  induction hrun with
  | brk h1 => obtain ⟨s', w', h2, _⟩ := h _ _ hs; rw [h1] at h2; cases h2
  | panic h1 => obtain ⟨s', w', h2, _⟩ := h _ _ hs; rw [h1] at h2; cases h2
  | ub h1 => obtain ⟨s', w', h2, _⟩ := h _ _ hs; rw [h1] at h2; cases h2
  | cont h1 _ ih =>
    obtain ⟨s', w', h2, h3⟩ := h _ _ hs
    rw [h1] at h2
    cases h2
    exact ih h3

/-- A turn of the retry loop which is not the last: there is less to do. -/
theorem parse_again {rem : S → List I} {errs : S → Nat} (hd : Delivers S rem errs) (chk : Bool)
    {p : Parser σ I T E} (s s' : Source S B) (h : Usable s) (ha : s.state.automaticFill = true)
    (hp : ∀ x y w n w', ahead rem s = x ++ y → p ⟨.default, x⟩ w = .ok (.incomplete n, w') →
      1 ≤ n ∧ x.length + n ≤ usizeMax)
    {r : Except (StreamError I E) T} {w w' : σ} (hr : s.parse chk p w = .ok ((r, s'), w'))
    (hn : r = .error .retry ∨ ∃ e, r = .error (.ioError e)) :
    Usable s' ∧ s'.state.automaticFill = true ∧ ahead rem s' = ahead rem s ∧
      todo rem errs s' < todo rem errs s := by
  rw [Source.parse_eq] at hr
  have run : ∀ s1 : Source S B, Usable s1 → s1.state.automaticFill = true →
      ahead rem s1 = ahead rem s → s1.attempt chk p w = .ok ((r, s'), w') →
      (s1.state.endOfInput = false →
        2 * (errs s1.source + (rem s1.source).length) < todo rem errs s) →
      Usable s' ∧ s'.state.automaticFill = true ∧ ahead rem s' = ahead rem s ∧
        todo rem errs s' < todo rem errs s := by
    intro s1 h1 h2 h3 h4 h5
    rcases hn with rfl | ⟨e, rfl⟩
    · obtain ⟨g1, n, m, g2, g3, rfl⟩ := attempt_retry h1 h4
      obtain ⟨k1, k2⟩ := hp (held s1) (rem s1.source) w n w' h3.symm g2
      rw [uaddB_ok k2] at g3
      cases g3
      refine ⟨h1, h2, h3, ?_⟩
      have := h5 g1
      unfold todo at this ⊢
      rw [if_pos ⟨rfl, by show (held s1).length < max 1 ((held s1).length + n); omega⟩]
      exact this
    · exact absurd h4 (attempt_no_io h1)
  by_cases hi : s.state.incomplete = true
  · rw [if_pos (by simp [hi, ha])] at hr
    rcases Source.fill_spec chk s h with ⟨h1, _⟩ | ⟨e, s1, xs, h1, h2⟩ | ⟨n, s1, xs, h1, h2⟩
    · rw [h1] at hr; cases hr
    · rw [h1, Res.bind_ok] at hr
      cases hr
      have hrd := h2.reads.rem hd
      obtain ⟨g1, g2⟩ := h2.err e rfl
      refine ⟨h2.usable, by rw [h2.state]; exact ha, ?_, ?_⟩
      · unfold ahead; rw [h2.held, hrd.1, List.append_assoc]
      · unfold todo
        rw [if_pos ⟨by rw [h2.state]; exact hi, by rw [h2.request_eq]; exact g1⟩]
        have := g2.errs hd
        have := congrArg List.length hrd.1
        rw [List.length_append] at this
        dsimp only
        omega
    · rw [h1, Res.bind_ok] at hr
      have hrd := h2.reads.rem hd
      have hl : (rem s.source).length = xs.length + (rem s1.source).length := by
        rw [hrd.1, List.length_append]
      obtain ⟨g1, g2⟩ := h2.ok n rfl
      refine run { s1 with state := s1.afterFill } h2.usable
        (by show s1.state.automaticFill = true; rw [h2.state]; exact ha) ?_ hr ?_
      · show held s1 ++ rem s1.source = _
        unfold ahead; rw [h2.held, hrd.1, List.append_assoc]
      · intro he
        change (!decide ((held s1).length ≥ max 1 s1.request)) = false at he
        rw [h2.request_eq] at he
        have he : max 1 s.request ≤ (held s1).length := by simpa using he
        have hh := congrArg List.length h2.held
        rw [List.length_append] at hh
        have := hrd.2
        unfold todo
        show 2 * (errs s1.source + (rem s1.source).length) < _
        by_cases hlt : (held s).length < max 1 s.request
        · omega
        · rw [if_neg (fun hh => hlt hh.2)]; omega
  · rw [if_neg (by simp [hi]), Res.bind_ok] at hr
    refine run s h ha rfl hr (fun _ => ?_)
    unfold todo
    rw [if_neg (fun hh => hi hh.1)]
    omega

end Chomp
