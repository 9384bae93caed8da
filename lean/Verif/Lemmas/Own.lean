import Verif.Lemmas.Retry
import Verif.Spec.Own

set_option linter.unusedSectionVars false

namespace Chomp.Own

open Spec (Built everything Allow autofilled modeOf LastRead retry again)
open Source (attempt parse_eq attempt_source)

variable {S B I : Type} [DataSource S I] [HonestSource S I] [Buffer B I] [OwnBuffer B I]

/-- More reads before the last. -/
theorem lastRead_after {s s1 s' : S} {xs ys : List I} {k : Nat} {r : Except IoError Nat} (h : Reads s xs s1)
    (hl : LastRead s1 ys k r s') : LastRead s (xs ++ ys) k r s' := by
  obtain ⟨s2, h1, h2⟩ := hl
  exact ⟨s2, h.trans h1, h2⟩

/-- What the loop of `fill_requested` does. -/
structure FillRun (request : Nat) (s : S) (b : B) (read : Nat) (r : Except IoError Nat) (s' : S) (b' : B) (xs : List I) :
    Prop where
  inv : OwnBuffer.Inv b'
  view : OwnBuffer.view b' = OwnBuffer.view b ++ xs
  hold : ∀ t, OwnBuffer.Holds b t → OwnBuffer.Holds b' t
  reads : Reads s xs s'
  ok : ∀ n, r = .ok n → n ≤ read + xs.length ∧
    (request ≤ (OwnBuffer.view b').length ∨ (OwnBuffer.Spacious b request → ∃ k, 0 < k ∧ LastRead s xs k (.ok 0) s'))
  err : ∀ e, r = .error e → ∃ k, LastRead s xs k (.error e) s'

theorem fillLoop (chk : Bool) (request : Nat) (s : S) (b : B) (read : Nat) (h : OwnBuffer.Inv b)
    (hr : read ≤ (OwnBuffer.view b).length) :
    ∃ r s' b' xs, loop (Source.fillStep chk request) (s, b, read) () = .ok ((r, s', b'), ()) ∧
      FillRun request s b read r s' b' xs := by
  generalize hm : request - (OwnBuffer.view b).length = m
  induction m using Nat.strongRecOn generalizing s b read with
  | _ m ih =>
    rw [loop_apply]
    have e : Source.fillStep chk request (s, b, read) () =
        if (OwnBuffer.view b).length < request then Buffer.fill chk s b >>= fillCase chk read
        else .ok (.inr (.ok read, s, b), ()) := by
      unfold Source.fillStep
      dsimp only
      rw [OwnBuffer.len chk h, M.bind_ok (M.lift_ok _ _)]
      split
      · rw [M.lift_bind]
        congr 1
        funext x
        match x with
        | (.error e, source, buffer) => rfl
        | (.ok 0, source, buffer) => rfl
        | (.ok (n + 1), source, buffer) => exact M.lift_bind _ _ _
      · rfl
    rw [e]
    by_cases hlt : (OwnBuffer.view b).length < request
    · rw [if_pos hlt]
      obtain ⟨r, s1, b1, xs, h1, h2, h3, h4, h5, h6, h7, h8, h9⟩ := OwnBuffer.fill chk s h
      rw [h1, Res.bind_ok]
      match r, h7, h8, h9 with
      | .error e, _, _, h9 =>
        refine ⟨_, s1, b1, xs, rfl, h3, h4, h5, h2, nofun, fun e' he => ?_⟩
        cases he
        exact h9 e rfl
      | .ok 0, _, h8, _ =>
        refine ⟨_, s1, b1, xs, rfl, h3, h4, h5, h2, fun n hn => ?_, nofun⟩
        cases hn
        refine ⟨Nat.le_add_right _ _, ?_⟩
        by_cases hv : request ≤ (OwnBuffer.view b1).length
        · exact .inl hv
        · exact .inr fun hs => h8 rfl request hs (by omega)
      | .ok (n + 1), h7, _, _ =>
        have hn := h7 _ rfl
        have hl : (OwnBuffer.view b1).length = (OwnBuffer.view b).length + xs.length := by
          rw [h4, List.length_append]
        have hsz := OwnBuffer.size h3
        rw [show fillCase chk read (.ok (n + 1), s1, b1) = .ok (.inl (s1, b1, read + (n + 1)), ()) by
            show (uaddB chk read (n + 1) >>= _) = _; rw [uaddB_ok (by omega)]; rfl]
        dsimp only [Res.bind_ok]
        obtain ⟨r, s', b', ys, g1, g2⟩ := ih (request - (OwnBuffer.view b1).length) (by omega) s1 b1 (read + (n + 1)) h3
          (by omega) rfl
        refine ⟨r, s', b', xs ++ ys, g1, g2.inv, by rw [g2.view, h4, List.append_assoc], fun t ht => g2.hold t (h5 t ht),
          h2.trans g2.reads, fun k hk => ?_, fun e he => ?_⟩
        · obtain ⟨k1, k2⟩ := g2.ok k hk
          refine ⟨by rw [List.length_append]; omega, k2.imp_right fun k2 hs => ?_⟩
          obtain ⟨k, k3, k4⟩ := k2 (h6 _ hs)
          exact ⟨k, k3, lastRead_after h2 k4⟩
        · obtain ⟨k, k4⟩ := g2.err e he
          exact ⟨k, lastRead_after h2 k4⟩
    · rw [if_neg hlt]
      refine ⟨_, _, _, [], rfl, h, by simp, fun t ht => ht, .done, fun n hn => ?_, nofun⟩
      cases hn
      exact ⟨Nat.le_refl _, .inl (by omega)⟩

/-- What `fill_requested` does. -/
structure Filled (request : Nat) (s : Source S B) (r : Except IoError Nat) (s' : Source S B) (xs : List I) : Prop where
  usable : Usable s'
  held : held s' = held s ++ xs
  request_eq : s'.request = s.request
  state : s'.state = s.state
  hold : ∀ t, OwnBuffer.Holds s.buffer t → OwnBuffer.Holds s'.buffer t
  reads : Reads s.source xs s'.source
  none : request ≤ (Own.held s).length → s' = s ∧ r = .ok 0
  ok : ∀ n, r = .ok n → n ≤ xs.length ∧ (request ≤ (Own.held s').length ∨
    (OwnBuffer.Holds s.buffer request → ∃ k, 0 < k ∧ LastRead s.source xs k (.ok 0) s'.source))
  err : ∀ e, r = .error e → ∃ k, LastRead s.source xs k (.error e) s'.source

theorem fillRequested_spec (chk : Bool) (request : Nat) (s : Source S B) (h : Usable s) :
    (s.fillRequested chk request = .panic ∧ (held s).length < request ∧
      Buffer.requestSpace chk (request - (held s).length) s.buffer = .panic) ∨
    ∃ r s' xs, s.fillRequested chk request = .ok (r, s') ∧ Filled request s r s' xs := by
  unfold Source.fillRequested
  rw [OwnBuffer.len chk h, Res.bind_ok]
  change (if (held s).length < request then _ else _) = _ ∧ _ ∨ ∃ r s' xs,
    (if (held s).length < request then _ else _) = _ ∧ _
  by_cases hlt : (held s).length < request
  · simp only [if_pos hlt]
    have hd : usubB chk request (OwnBuffer.view s.buffer).length = .ok (request - (held s).length) :=
      usubB_ok (Nat.le_of_lt hlt)
    rw [hd, Res.bind_ok]
    have hb : OwnBuffer.Inv s.buffer := h
    rcases OwnBuffer.request chk (request - (held s).length) hb with hp | ⟨b1, h1, h2, h3, h4⟩
    · rw [hp]; exact .inl ⟨rfl, hlt, rfl⟩
    · right
      rw [h1, Res.bind_ok]
      obtain ⟨r, s', b', xs, g1, g⟩ := fillLoop chk request s.source b1 0 h2 (Nat.zero_le _)
      rw [g1]
      refine ⟨r, _, xs, rfl, g.inv, ?_, rfl, rfl, fun t ht => g.hold t (h4 t ht), g.reads, fun hle => by omega,
        fun n hn => ?_, g.err⟩
      · show OwnBuffer.view b' = OwnBuffer.view s.buffer ++ xs
        rw [g.view, h3]
      · obtain ⟨k1, k2⟩ := g.ok n hn
        refine ⟨by omega, k2.imp_right fun k2 hc => k2 ?_⟩
        have e : request = (OwnBuffer.view s.buffer).length + (request - (held s).length) := by
          have : (held s).length = (OwnBuffer.view s.buffer).length := rfl
          omega
        rw [e] at hc
        obtain ⟨b2, k3, k4⟩ := OwnBuffer.request_fits chk hb hc
        rw [h1] at k3
        cases k3
        rw [e]
        exact k4
  · right
    simp only [if_neg hlt]
    refine ⟨_, _, [], rfl, h, by simp, rfl, rfl, fun t ht => ht, .done, fun _ => ⟨rfl, rfl⟩, fun n hn => ?_, nofun⟩
    cases hn
    exact ⟨Nat.le_refl _, .inl (by omega)⟩

theorem read_eq (chk : Bool) (k : Nat) (s : Source S B) (h : Usable s) :
    s.read chk k = s.fillRequested chk k >>= fun x => match x.1 with
      | .error e => .ok (.error e, x.2)
      | .ok _ => Buffer.deref x.2.buffer >>= fun data =>
        Buffer.consume chk (min k data.length) x.2.buffer >>= fun b =>
        .ok (.ok (data.take (min k data.length)), { x.2 with buffer := b }) := by
  have hb : OwnBuffer.Inv s.buffer := h
  unfold Source.read Source.len
  rw [OwnBuffer.len chk hb, Res.bind_ok]
  by_cases hk : k > (OwnBuffer.view s.buffer).length
  · rw [if_pos hk]; rfl
  · rw [if_neg hk]
    have : s.fillRequested chk k = .ok (.ok 0, s) := by
      unfold Source.fillRequested
      rw [OwnBuffer.len chk hb, Res.bind_ok, if_neg (by omega)]
    rw [this]
    rfl

/-- What `read` does. -/
theorem read_spec (chk : Bool) (k : Nat) (s : Source S B) (h : Usable s) :
    (s.read chk k = .panic ∧ (held s).length < k ∧
      Buffer.requestSpace chk (k - (held s).length) s.buffer = .panic) ∨
    (∃ e s' xs, s.read chk k = .ok (.error e, s') ∧ Filled k s (.error e) s' xs) ∨
    ∃ n s1 xs b, s.read chk k = .ok (.ok ((held s1).take k), { s1 with buffer := b }) ∧
      Filled k s (.ok n) s1 xs ∧ OwnBuffer.Inv b ∧ OwnBuffer.view b = (held s1).drop k ∧
      ∀ t, OwnBuffer.Holds s1.buffer t → OwnBuffer.Holds b t := by
  rw [read_eq chk k s h]
  rcases fillRequested_spec chk k s h with ⟨h1, h2⟩ | ⟨r, s1, xs, h1, h2⟩
  · rw [h1]; exact .inl ⟨rfl, h2⟩
  · right
    rw [h1, Res.bind_ok]
    cases r with
    | error e => exact .inl ⟨e, s1, xs, rfl, h2⟩
    | ok n =>
      right
      have hb : OwnBuffer.Inv s1.buffer := h2.usable
      dsimp only
      rw [OwnBuffer.deref hb, Res.bind_ok]
      obtain ⟨b, g1, g2, g3, g4⟩ := OwnBuffer.consume
        (n := min k (OwnBuffer.view s1.buffer).length) chk hb (Nat.min_le_right _ _)
      rw [g1]
      have e1 : (held s1).take k =
          (OwnBuffer.view s1.buffer).take (min k (OwnBuffer.view s1.buffer).length) := by
        rw [List.take_eq_take_min]; rfl
      refine ⟨n, s1, xs, b, by rw [e1]; rfl, h2, g2, ?_, g4⟩
      rw [g3]
      show _ = (OwnBuffer.view s1.buffer).drop k
      by_cases hk : k ≤ (OwnBuffer.view s1.buffer).length
      · rw [Nat.min_eq_left hk]
      · rw [Nat.min_eq_right (by omega), List.drop_length, List.drop_of_length_le (by omega)]

/-- What `fill_buf` does. -/
theorem fillBuf_spec (chk : Bool) (s : Source S B) (h : Usable s) :
    (s.fillBuf chk = .panic ∧ (held s).length < Buffer.capacity s.buffer ∧
      Buffer.requestSpace chk (Buffer.capacity s.buffer - (held s).length) s.buffer = .panic) ∨
    (∃ e s' xs, s.fillBuf chk = .ok (.error e, s') ∧
      Filled (Buffer.capacity s.buffer) s (.error e) s' xs) ∨
    ∃ n s' xs, s.fillBuf chk = .ok (.ok (held s'), s') ∧
      Filled (Buffer.capacity s.buffer) s (.ok n) s' xs := by
  unfold Source.fillBuf
  dsimp only
  rcases fillRequested_spec chk (Buffer.capacity s.buffer) s h with ⟨h1, h2⟩ | ⟨r, s1, xs, h1, h2⟩
  · rw [h1]; exact .inl ⟨rfl, h2⟩
  · right
    rw [h1, Res.bind_ok]
    cases r with
    | error e => exact .inl ⟨e, s1, xs, rfl, h2⟩
    | ok n =>
      right
      have hb : OwnBuffer.Inv s1.buffer := h2.usable
      dsimp only
      rw [OwnBuffer.deref hb]
      exact ⟨n, s1, xs, rfl, h2⟩

/-- The flags after `fill`. -/
def afterFill (s : Source S B) : Flags :=
  { s.state with incomplete := false, endOfInput := !decide ((held s).length ≥ max 1 s.request) }

theorem fill_spec (chk : Bool) (s : Source S B) (h : Usable s) :
    (s.fill chk = .panic ∧ (held s).length < max 1 s.request ∧
      Buffer.requestSpace chk (max 1 s.request - (held s).length) s.buffer = .panic) ∨
    (∃ e s' xs, s.fill chk = .ok (.error e, s') ∧ Filled (max 1 s.request) s (.error e) s' xs) ∨
    ∃ n s' xs, s.fill chk = .ok (.ok n, { s' with state := afterFill s' }) ∧
      Filled (max 1 s.request) s (.ok n) s' xs := by
  unfold Source.fill
  rcases fillRequested_spec chk (max 1 s.request) s h with ⟨h1, h2⟩ | ⟨r, s', xs, h1, h2⟩
  · left; dsimp only; rw [h1]; exact ⟨rfl, h2⟩
  · right
    dsimp only
    rw [h1]
    cases r with
    | error e => exact .inl ⟨e, s', xs, rfl, h2⟩
    | ok n =>
      right
      refine ⟨n, s', xs, ?_, h2⟩
      dsimp only [Res.bind_ok]
      have hu : OwnBuffer.Inv s'.buffer := h2.usable
      rw [OwnBuffer.len chk hu, Res.bind_ok]
      unfold afterFill
      rw [h2.request_eq]
      rfl

omit [HonestSource S I] in
theorem isEmpty_eq (chk : Bool) (s : Source S B) (h : Usable s) :
    s.isEmpty chk = .ok (decide (s.state.endOfInput = true ∧ held s = [])) := by
  unfold Source.isEmpty Source.len
  have hb : OwnBuffer.Inv s.buffer := h
  rw [OwnBuffer.len chk hb]
  cases s.state.endOfInput
  · simp
  · have e : held s = OwnBuffer.view s.buffer := rfl
    simp only [if_true, Res.bind_ok, true_and, e, Res.ok.injEq]
    cases OwnBuffer.view s.buffer <;> simp

omit [HonestSource S I] in
theorem attempt_end (chk : Bool) (f : Parser σ I T E) (s : Source S B) (w : σ) (h : Usable s)
    (h1 : s.state.endOfInput = true) (h2 : held s = []) :
    s.attempt chk f w = .ok ((.error .endOfInput, s), w) := by
  unfold Source.attempt
  rw [isEmpty_eq chk s h, M.bind_ok (M.lift_ok _ _)]
  simp [h1, h2]

/-- What `parse` does with the result of the parser. -/
def finish (chk : Bool) (s : Source S B) :
    ParseResult I T E × σ → Res ((Except (StreamError I E) T × Source S B) × σ)
  | (.data remainder data, w) =>
    usubB chk (held s).length remainder.buf.length >>= fun d =>
    Buffer.consume chk d s.buffer >>= fun b => .ok ((.ok data, { s with buffer := b }), w)
  | (.error remainder err, w) =>
    usubB chk (held s).length remainder.length >>= fun d =>
    Buffer.consume chk d s.buffer >>= fun b =>
      .ok ((.error (.parseError remainder err), { s with buffer := b }), w)
  | (.incomplete n, w) =>
    uaddB chk (held s).length n >>= fun request =>
      if s.state.endOfInput then .ok ((.error (.incomplete request), { s with request := request }), w)
      else .ok ((.error .retry,
        { s with request := request, state := { s.state with incomplete := true } }), w)

omit [HonestSource S I] in
theorem attempt_eq (chk : Bool) (f : Parser σ I T E) (s : Source S B) (w : σ) (h : Usable s)
    (hn : ¬ (s.state.endOfInput = true ∧ held s = [])) :
    s.attempt chk f w = f ⟨modeOf s, held s⟩ w >>= finish chk s := by
  unfold Source.attempt
  have hb : OwnBuffer.Inv s.buffer := h
  rw [isEmpty_eq chk s h, M.bind_ok (M.lift_ok _ _)]
  simp only [hn, decide_false, Bool.false_eq_true, if_false]
  rw [OwnBuffer.deref hb, M.bind_ok (M.lift_ok _ _), M.bind_apply]
  congr 1
  funext x
  obtain ⟨r, w1⟩ := x
  cases r with
  | data i t =>
    simp only [OwnBuffer.len chk hb, M.lift_bind, Res.bind_ok]; rfl
  | error b e =>
    simp only [OwnBuffer.len chk hb, M.lift_bind, Res.bind_ok]; rfl
  | incomplete n =>
    simp only [OwnBuffer.len chk hb, M.lift_bind, Res.bind_ok, finish, held]
    congr 1
    funext req
    split <;> rfl

omit [HonestSource S I] in
/-- Consuming up to a suffix. -/
theorem advance (chk : Bool) (s : Source S B) (h : Usable s) (x y : List I) (hx : held s = x ++ y) :
    ∃ b, (usubB chk (held s).length y.length >>= fun d => Buffer.consume chk d s.buffer) = .ok b ∧
      OwnBuffer.Inv b ∧ OwnBuffer.view b = y ∧ ∀ t, OwnBuffer.Holds s.buffer t → OwnBuffer.Holds b t := by
  have hb : OwnBuffer.Inv s.buffer := h
  have hv : OwnBuffer.view s.buffer = x ++ y := hx
  have hl : (held s).length = x.length + y.length := by rw [hx, List.length_append]
  obtain ⟨b, h1, h2, h3, h4⟩ := OwnBuffer.consume (n := x.length) chk hb (by rw [hv]; simp)
  refine ⟨b, ?_, h2, ?_, h4⟩
  · rw [usubB_ok (by omega), Res.bind_ok, show (held s).length - y.length = x.length by omega, h1]
  · rw [h3, hv]; simp

omit [HonestSource S I] in
theorem attempt_data (chk : Bool) {p : Parser σ I T E} (hp : Built everything p) (s : Source S B)
    (w w' : σ) (h : Usable s) (hn : ¬ (s.state.endOfInput = true ∧ held s = [])) {i : Input I} {t : T}
    (hr : p ⟨modeOf s, held s⟩ w = .ok (.data i t, w')) :
    ∃ b, s.attempt chk p w = .ok ((.ok t, { s with buffer := b }), w') ∧ i.mode = modeOf s ∧
      OwnBuffer.Inv b ∧ OwnBuffer.view b = i.buf ∧
      ∀ t, OwnBuffer.Holds s.buffer t → OwnBuffer.Holds b t := by
  have hg := Built.good hp ⟨modeOf s, held s⟩ w
  rw [hr] at hg
  obtain ⟨hm, x, hx⟩ := hg
  obtain ⟨b, h1, h2⟩ := advance chk s h x i.buf hx.symm
  refine ⟨b, ?_, hm, h2⟩
  rw [attempt_eq chk p s w h hn, hr, Res.bind_ok]
  show (usubB _ _ _ >>= fun d => Buffer.consume chk d s.buffer >>= _) = _
  rw [← bind_assoc, h1]
  rfl

omit [HonestSource S I] in
theorem attempt_error (chk : Bool) {p : Parser σ I T E} (hp : Built everything p) (s : Source S B)
    (w w' : σ) (h : Usable s) (hn : ¬ (s.state.endOfInput = true ∧ held s = [])) {y : List I} {e : E}
    (hr : p ⟨modeOf s, held s⟩ w = .ok (.error y e, w')) :
    ∃ b, s.attempt chk p w = .ok ((.error (.parseError y e), { s with buffer := b }), w') ∧
      OwnBuffer.Inv b ∧ OwnBuffer.view b = y ∧
      ∀ t, OwnBuffer.Holds s.buffer t → OwnBuffer.Holds b t := by
  have hg := Built.good hp ⟨modeOf s, held s⟩ w
  rw [hr] at hg
  obtain ⟨x, hx⟩ := hg
  obtain ⟨b, h1, h2⟩ := advance chk s h x y hx.symm
  refine ⟨b, ?_, h2⟩
  rw [attempt_eq chk p s w h hn, hr, Res.bind_ok]
  show (usubB _ _ _ >>= fun d => Buffer.consume chk d s.buffer >>= _) = _
  rw [← bind_assoc, h1]
  rfl

omit [HonestSource S I] in
theorem attempt_effect (chk : Bool) {p : Parser σ I T E} (hp : Built everything p) (s : Source S B)
    (w w' : σ) (h : Usable s) {r : Except (StreamError I E) T} {s' : Source S B}
    (hr : s.attempt chk p w = .ok ((r, s'), w')) :
    Usable s' ∧ s'.source = s.source ∧ Effect p (held s) w r s' w' ∧ modeOf s' = modeOf s ∧
      s'.state.automaticFill = s.state.automaticFill ∧
      (s'.state.incomplete = true ↔ s.state.incomplete = true ∨ r = .error .retry) ∧
      (∀ t, OwnBuffer.Holds s.buffer t → OwnBuffer.Holds s'.buffer t) := by
  by_cases hn : s.state.endOfInput = true ∧ held s = []
  · rw [attempt_end chk p s w h hn.1 hn.2] at hr
    cases hr
    refine ⟨h, rfl, ⟨?_, hn.2, hn.2, rfl⟩, rfl, rfl, by simp, fun t ht => ht⟩
    simp [modeOf, hn.1]
  · match hf : p ⟨modeOf s, held s⟩ w with
    | .ok (.data i t, w1) =>
      obtain ⟨b, h1, h2, h3, h4, h7⟩ := attempt_data chk hp s w w1 h hn hf
      rw [h1] at hr
      cases hr
      refine ⟨h3, rfl, ?_, rfl, rfl, by simp, h7⟩
      show p ⟨modeOf s, held s⟩ w = .ok (.data ⟨modeOf s, OwnBuffer.view b⟩ t, w')
      rw [hf, h4, ← h2]
    | .ok (.error y e, w1) =>
      obtain ⟨b, h1, h3, h4, h7⟩ := attempt_error chk hp s w w1 h hn hf
      rw [h1] at hr
      cases hr
      exact ⟨h3, rfl, ⟨hf, h4⟩, rfl, rfl, by simp, h7⟩
    | .ok (.incomplete n, w1) =>
      rw [attempt_eq chk p s w h hn, hf, Res.bind_ok] at hr
      unfold finish at hr
      dsimp only at hr
      cases hu : uaddB chk (held s).length n with
      | ok m =>
        rw [hu, Res.bind_ok] at hr
        cases he : s.state.endOfInput with
        | true =>
          simp only [he, if_true, Res.ok.injEq, Prod.mk.injEq] at hr
          obtain ⟨⟨rfl, rfl⟩, rfl⟩ := hr
          have hm : modeOf s = .endOfInput := by simp [modeOf, he]
          rw [hm] at hf
          exact ⟨h, rfl, ⟨hm, rfl, n, hf⟩, rfl, rfl, by simp, fun t ht => ht⟩
        | false =>
          simp only [he, Bool.false_eq_true, if_false, Res.ok.injEq, Prod.mk.injEq] at hr
          obtain ⟨⟨rfl, rfl⟩, rfl⟩ := hr
          have hm : modeOf s = .default := by simp [modeOf, he]
          rw [hm] at hf
          exact ⟨h, rfl, ⟨by simp [modeOf], rfl, n, hf⟩, by simp [modeOf, he], rfl, by simp,
            fun t ht => ht⟩
      | panic => rw [hu] at hr; cases hr
      | ub => rw [hu] at hr; cases hr
      | div => rw [hu] at hr; cases hr
    | .panic => rw [attempt_eq chk p s w h hn, hf] at hr; cases hr
    | .ub => rw [attempt_eq chk p s w h hn, hf] at hr; cases hr
    | .div => rw [attempt_eq chk p s w h hn, hf] at hr; cases hr

/-- What the parser does on the buffer, seen from the whole of the data. -/
theorem attempt_agrees {rem : S → List I} (chk : Bool) {p : Parser Unit I T E}
    {a : Allow} (ha : a.chunkDependent = false) (hp : Built a p) (hp' : Built everything p)
    (s : Source S B) (h : Ready rem s) (hi : s.state.incomplete = false)
    (hne : ¬ (s.state.endOfInput = true ∧ held s = [])) (hfit : Fits p s.buffer (ahead rem s)) :
    (∃ s', s.attempt chk p () = .ok ((.error .retry, s'), ()) ∧ s.state.endOfInput = false ∧
      s'.state.incomplete = true ∧ (held s').length < s'.request ∧ held s' = held s ∧
      s'.source = s.source ∧ Continues rem s s' ∧
      s'.state.automaticFill = true) ∨
    ((∀ s1 w1, s.attempt chk p () ≠ .ok ((.error .retry, s1), w1)) ∧
      (∀ e s1 w1, s.attempt chk p () ≠ .ok ((.error (.ioError e), s1), w1)) ∧
      Agrees rem s (p ⟨.endOfInput, ahead rem s⟩ ()) (s.attempt chk p ())) := by
  have hext := Built.ext ha hp
  match hf : p ⟨modeOf s, held s⟩ () with
  | .ok (.data i t, ()) =>
    right
    obtain ⟨b, h1, h2, h3, h4, h7⟩ := attempt_data chk hp' s () () h.usable hne hf
    rw [h1]
    refine ⟨(fun _ _ h => by cases h), (fun _ _ _ h => by cases h), ?_⟩
    have key : p ⟨.endOfInput, ahead rem s⟩ () =
        .ok (.data ⟨.endOfInput, i.buf ++ rem s.source⟩ t, ()) := by
      cases he : s.state.endOfInput with
      | true =>
        rw [modeOf_end he] at hf h2
        unfold ahead
        rw [h.endOfInput he, List.append_nil, List.append_nil, hf, ← h2]
      | false =>
        rw [modeOf_default he] at hf
        have := hext (held s) .endOfInput (rem s.source) ()
        rw [hf] at this
        exact this.2
    rw [key]
    refine ⟨_, rfl, ?_, ⟨h3, h.automatic, h.endOfInput, fun hi' => ?_⟩, h7⟩
    · show OwnBuffer.view b ++ _ = _
      rw [h4]
    · exact h7 _ (h.request hi')
  | .ok (.error y e, ()) =>
    right
    obtain ⟨b, h1, h3, h4, h7⟩ := attempt_error chk hp' s () () h.usable hne hf
    rw [h1]
    refine ⟨(fun _ _ h => by cases h), (fun _ _ _ h => by cases h), ?_⟩
    have key : p ⟨.endOfInput, ahead rem s⟩ () = .ok (.error (y ++ rem s.source) e, ()) := by
      cases he : s.state.endOfInput with
      | true =>
        rw [modeOf_end he] at hf
        unfold ahead
        rw [h.endOfInput he, List.append_nil, List.append_nil, hf]
      | false =>
        rw [modeOf_default he] at hf
        have := hext (held s) .endOfInput (rem s.source) ()
        rw [hf] at this
        exact this
    rw [key]
    refine ⟨{ s with buffer := b }, ?_, ?_, ⟨h3, h.automatic, h.endOfInput, fun hi' => ?_⟩, h7⟩
    · show _ = Res.ok ((Except.error (StreamError.parseError (OwnBuffer.view b) e), _), ())
      rw [h4]
    · show OwnBuffer.view b ++ _ = _
      rw [h4]
    · exact h7 _ (h.request hi')
  | .ok (.incomplete n, ()) =>
    rw [attempt_eq chk p s () h.usable hne, hf, Res.bind_ok]
    unfold finish
    dsimp only
    cases he : s.state.endOfInput with
    | true =>
      right
      rw [modeOf_end he] at hf
      have hfull : ahead rem s = held s := by
        unfold ahead; rw [h.endOfInput he, List.append_nil]
      have := hfit.2 n (by rw [hfull]; exact hf)
      rw [hfull] at this
      rw [uaddB_ok this]
      simp only [Res.bind_ok, if_true]
      refine ⟨by simp, by simp, ?_⟩
      rw [hfull, hf]
      refine ⟨{ s with request := (held s).length + n }, by rw [hfull], hfull.symm ▸ hfull,
        ⟨h.usable, h.automatic, h.endOfInput, ?_⟩, fun _ h => h⟩
      intro hi'
      simp [hi] at hi'
    | false =>
      left
      rw [modeOf_default he] at hf
      have hc := hfit.1 (held s) (rem s.source) n rfl hf
      have hu : (held s).length + n ≤ usizeMax := OwnBuffer.holds_size (b := s.buffer) h.usable
        (Nat.le_add_right _ _) hc
      have hn : 1 ≤ n := by
        have := hext (held s) .default [] ()
        rw [hf] at this
        exact this.1
      rw [uaddB_ok hu]
      simp only [Res.bind_ok, Bool.false_eq_true, if_false]
      refine ⟨_, rfl, trivial, rfl, ?_, rfl, rfl, ⟨⟨h.usable, h.automatic, nofun, ?_⟩, fun _ h => h⟩,
        h.automatic⟩
      · show (held s).length < (held s).length + n; omega
      · intro _
        have : max 1 ((held s).length + n) = (held s).length + n := by omega
        show OwnBuffer.Holds s.buffer (max 1 ((held s).length + n))
        rw [this]
        exact hc
  | .panic =>
    right
    rw [attempt_eq chk p s () h.usable hne, hf]
    refine ⟨by simp, by simp, ?_⟩
    have key : p ⟨.endOfInput, ahead rem s⟩ () = .panic := by
      cases he : s.state.endOfInput with
      | true =>
        rw [modeOf_end he] at hf
        unfold ahead; rw [h.endOfInput he, List.append_nil, hf]
      | false =>
        rw [modeOf_default he] at hf
        have := hext (held s) .endOfInput (rem s.source) ()
        rw [hf] at this
        exact this
    rw [key]
    rfl
  | .ub =>
    right
    rw [attempt_eq chk p s () h.usable hne, hf]
    refine ⟨by simp, by simp, ?_⟩
    have key : p ⟨.endOfInput, ahead rem s⟩ () = .ub := by
      cases he : s.state.endOfInput with
      | true =>
        rw [modeOf_end he] at hf
        unfold ahead; rw [h.endOfInput he, List.append_nil, hf]
      | false =>
        rw [modeOf_default he] at hf
        have := hext (held s) .endOfInput (rem s.source) ()
        rw [hf] at this
        exact this
    rw [key]
    rfl
  | .div =>
    right
    rw [attempt_eq chk p s () h.usable hne, hf]
    refine ⟨by simp, by simp, ?_⟩
    have key : p ⟨.endOfInput, ahead rem s⟩ () = .div := by
      cases he : s.state.endOfInput with
      | true =>
        rw [modeOf_end he] at hf
        unfold ahead; rw [h.endOfInput he, List.append_nil, hf]
      | false =>
        rw [modeOf_default he] at hf
        have := hext (held s) .endOfInput (rem s.source) ()
        rw [hf] at this
        exact this
    rw [key]
    rfl

/-- Agreement after some more reading. -/
theorem Agrees.earlier {rem : S → List I} {s s1 : Source S B} (ha : ahead rem s = ahead rem s1)
    (hc : ∀ t, OwnBuffer.Holds s.buffer t → OwnBuffer.Holds s1.buffer t)
    {x : Res (ParseResult I T E × Unit)} {y : Res ((Except (StreamError I E) T × Source S B) × Unit)}
    (h : Agrees rem s1 x y) : Agrees rem s x y := by
  match x, h with
  | .ok (.data i t, _), ⟨s', h1, h2, h3, h4⟩ => exact ⟨s', h1, h2, h3, fun t ht => h4 t (hc t ht)⟩
  | .ok (.error b e, _), ⟨s', h1, h2, h3, h4⟩ => exact ⟨s', h1, h2, h3, fun t ht => h4 t (hc t ht)⟩
  | .ok (.incomplete n, _), ⟨s', h1, h2, h3, h4⟩ =>
    exact ⟨s', by rw [h1, ha], by rw [h2, ha], h3, fun t ht => h4 t (hc t ht)⟩
  | .panic, h => exact h
  | .ub, h => exact h
  | .div, h => exact h

omit [HonestSource S I] in
/-- An outcome which ends the loop. -/
theorem final_bind {p : Parser σ I T E} {chk : Bool}
    {x : Res ((Except (StreamError I E) T × Source S B) × σ)}
    (h1 : ∀ s1 w1, x ≠ .ok ((.error .retry, s1), w1))
    (h2 : ∀ e s1 w1, x ≠ .ok ((.error (.ioError e), s1), w1)) :
    (x >>= fun x =>
      match again x.1 with
      | .inl s' => retry chk p s' x.2
      | .inr r => .ok (r, x.2)) = x := by
  match x with
  | .ok ((.ok t, s), w) => rfl
  | .ok ((.error .retry, s), w) => exact absurd rfl (h1 s w)
  | .ok ((.error (.ioError e), s), w) => exact absurd rfl (h2 e s w)
  | .ok ((.error .endOfInput, s), w) => rfl
  | .ok ((.error (.incomplete _), s), w) => rfl
  | .ok ((.error (.parseError _ _), s), w) => rfl
  | .panic => rfl
  | .ub => rfl
  | .div => rfl

/-- Reading before the parser runs. -/
theorem fill_ready {rem : S → List I} {errs : S → Nat} (hd : Delivers S rem errs) (chk : Bool)
    (s : Source S B) (h : Ready rem s) (hi : s.state.incomplete = true) :
    (∃ e s1, s.fill chk = .ok (.error e, s1) ∧ Continues rem s s1 ∧ ahead rem s1 = ahead rem s ∧
      s1.state = s.state ∧
      errs s1.source < errs s.source ∧ (rem s1.source).length ≤ (rem s.source).length) ∨
    (∃ n s1, s.fill chk = .ok (.ok n, s1) ∧ Continues rem s s1 ∧ ahead rem s1 = ahead rem s ∧
      s1.state.incomplete = false ∧ errs s1.source ≤ errs s.source ∧
      (s1.state.endOfInput = false → held s1 ≠ [] ∧ ((held s).length < max 1 s.request →
        (rem s1.source).length < (rem s.source).length)) ∧
      (rem s1.source).length ≤ (rem s.source).length) := by
  have hc := h.request hi
  rcases fill_spec chk s h.usable with ⟨_, h2, h3⟩ | ⟨e, s1, xs, h1, h2⟩ | ⟨n, s1, xs, h1, h2⟩
  · exfalso
    have hv : (OwnBuffer.view s.buffer).length = (held s).length := rfl
    rw [show max 1 s.request = (OwnBuffer.view s.buffer).length +
      (max 1 s.request - (held s).length) by omega] at hc
    obtain ⟨b', h4, _⟩ := OwnBuffer.request_fits chk (b := s.buffer) h.usable hc
    rw [h3] at h4
    cases h4
  · left
    have hr := h2.reads.rem hd
    obtain ⟨g1, g2⟩ := h2.err e rfl
    refine ⟨e, s1, h1, ⟨⟨h2.usable, by rw [h2.state]; exact h.automatic, ?_, ?_⟩, h2.hold⟩, ?_, h2.state,
      g2.errs hd, ?_⟩
    · intro he
      rw [h2.state] at he
      have := h.endOfInput he
      rw [hr.1] at this
      exact (List.append_eq_nil_iff.mp this).2
    · intro _; rw [h2.request_eq]; exact h2.hold _ hc
    · unfold ahead; rw [h2.held, hr.1, List.append_assoc]
    · rw [hr.1, List.length_append]; omega
  · right
    have hr := h2.reads.rem hd
    obtain ⟨g1, g2⟩ := h2.ok n rfl
    refine ⟨n, _, h1, ⟨⟨h2.usable, ?_, ?_, ?_⟩, h2.hold⟩, ?_, rfl, hr.2, ?_, ?_⟩
    · show s1.state.automaticFill = true
      rw [h2.state]; exact h.automatic
    · intro he
      change (!decide ((held s1).length ≥ max 1 s1.request)) = true at he
      rw [h2.request_eq] at he
      have he : (held s1).length < max 1 s.request := by simpa using he
      rcases g2 with g2 | g3
      · omega
      · obtain ⟨k, g4, g5⟩ := g3 hc
        exact g5.drained hd g4
    · intro hi'; cases hi'
    · show held s1 ++ rem s1.source = _
      unfold ahead; rw [h2.held, hr.1, List.append_assoc]
    · intro he
      change (!decide ((held s1).length ≥ max 1 s1.request)) = false at he
      rw [h2.request_eq] at he
      have he : max 1 s.request ≤ (held s1).length := by simpa using he
      refine ⟨?_, fun hlt => ?_⟩
      · intro h0
        change held s1 = [] at h0
        rw [h0] at he
        simp at he
      · have := congrArg List.length h2.held
        rw [List.length_append] at this
        show (rem s1.source).length < _
        rw [hr.1, List.length_append]; omega
    · show (rem s1.source).length ≤ _
      rw [hr.1, List.length_append]; omega

/-- What is left to do: reading, and running the parser once before the next read. -/
def todo (rem : S → List I) (errs : S → Nat) (s : Source S B) : Nat :=
  2 * (errs s.source + (rem s.source).length) +
    if s.state.incomplete = true ∧ (held s).length < max 1 s.request then 0 else 1

theorem Continues.fits {rem : S → List I} {s s1 : Source S B} (h : Continues rem s s1)
    {p : Parser Unit I T E} {full : List I} (hf : Fits p s.buffer full) : Fits p s1.buffer full :=
  ⟨fun x y n hx hn => h.2 _ (hf.1 x y n hx hn), hf.2⟩

theorem retry_agrees {rem : S → List I} {errs : S → Nat} (hd : Delivers S rem errs) (chk : Bool)
    {p : Parser Unit I T E} {a : Allow} (ha : a.chunkDependent = false) (hp : Built a p)
    (hp' : Built everything p) (s : Source S B) (h : Ready rem s) (hne : ahead rem s ≠ [])
    (hfit : Fits p s.buffer (ahead rem s)) :
    Agrees rem s (p ⟨.endOfInput, ahead rem s⟩ ()) (retry chk p s ()) := by
  generalize hm : todo rem errs s = m
  induction m using Nat.strongRecOn generalizing s with
  | _ m ih =>
    rw [retry_eq, Source.parse_eq]
    -- running the parser on `s1`, which has been reached by reading
    have run : ∀ s1 : Source S B, Continues rem s s1 → ahead rem s1 = ahead rem s →
        s1.state.incomplete = false →
        (s1.state.endOfInput = false → 2 * (errs s1.source + (rem s1.source).length) < m) →
        Agrees rem s (p ⟨.endOfInput, ahead rem s⟩ ()) (s1.attempt chk p () >>= fun x =>
          match again x.1 with
          | .inl s' => retry chk p s' x.2
          | .inr r => .ok (r, x.2)) := by
      intro s1 hc ha1 hi hlt
      have hne1 : ¬ (s1.state.endOfInput = true ∧ held s1 = []) := by
        rintro ⟨k1, k2⟩
        apply hne
        rw [← ha1]
        unfold ahead
        rw [k2, hc.1.endOfInput k1]
        rfl
      have hfit1 : Fits p s1.buffer (ahead rem s1) := by rw [ha1]; exact hc.fits hfit
      rcases attempt_agrees chk ha hp hp' s1 hc.1 hi hne1 hfit1 with
        ⟨s', h1, h2, h3, h4, h5, h6, h7, h8⟩ | ⟨h1, h2, h3⟩
      · rw [h1]
        simp only [Res.bind_ok, again]
        have ha2 : ahead rem s = ahead rem s' := by
          rw [← ha1]; unfold ahead; rw [h5, h6]
        have hcs : ∀ t, OwnBuffer.Holds s.buffer t → OwnBuffer.Holds s'.buffer t :=
          fun t ht => h7.2 t (hc.2 t ht)
        refine Agrees.earlier ha2 hcs ?_
        rw [ha2]
        refine ih (todo rem errs s') ?_ s' h7.1 (by rw [← ha2]; exact hne) ?_ rfl
        · unfold todo
          rw [if_pos ⟨h3, by omega⟩, h6]
          have := hlt h2
          omega
        · rw [← ha2]
          exact Continues.fits (s := s) ⟨h7.1, hcs⟩ hfit
      · rw [final_bind h1 h2]
        rw [ha1] at h3
        exact Agrees.earlier ha1.symm hc.2 h3
    by_cases hi : s.state.incomplete = true
    · rw [if_pos (by simp [hi, h.automatic])]
      rcases fill_ready hd chk s h hi with ⟨e, s1, h1, h2, h3, h4, h6, h7⟩ |
        ⟨n, s1, h1, h2, h3, h4, h5, h6, h7⟩
      · rw [h1]
        simp only [Res.bind_ok, again]
        refine Agrees.earlier h3.symm h2.2 ?_
        rw [← h3]
        refine ih (todo rem errs s1) ?_ s1 h2.1 (by rw [h3]; exact hne)
          (by rw [h3]; exact h2.fits hfit) rfl
        rw [← hm]
        unfold todo
        split <;> split <;> omega
      · rw [h1]
        simp only [Res.bind_ok]
        refine run s1 h2 h3 h4 (fun he => ?_)
        rw [← hm]
        unfold todo
        obtain ⟨_, k2⟩ := h6 he
        by_cases hlt : (held s).length < max 1 s.request
        · have := k2 hlt
          omega
        · rw [if_neg (fun hh => hlt hh.2)]
          omega
    · rw [if_neg (by simp [hi])]
      simp only [Res.bind_ok]
      refine run s ⟨h, fun _ ht => ht⟩ rfl (by simpa using hi) (fun _ => ?_)
      rw [← hm]
      unfold todo
      rw [if_neg (fun hh => hi hh.1)]
      omega

/-! ### any parser -/

omit [HonestSource S I] in
/-- `Retry` comes from an incomplete result on a slice which is not the last. -/
theorem attempt_retry {chk : Bool} {p : Parser σ I T E} {s s' : Source S B} (h : Usable s) {w w' : σ}
    (hr : s.attempt chk p w = .ok ((.error .retry, s'), w')) :
    s.state.endOfInput = false ∧ ∃ n m, p ⟨.default, held s⟩ w = .ok (.incomplete n, w') ∧
      uaddB chk (held s).length n = .ok m ∧
      s' = { s with request := m, state := { s.state with incomplete := true } } := by
  by_cases hne : s.state.endOfInput = true ∧ held s = []
  · rw [attempt_end chk p s w h hne.1 hne.2] at hr
    cases hr
  · rw [attempt_eq chk p s w h hne] at hr
    match hf : p ⟨modeOf s, held s⟩ w with
    | .ok (.data i t, w1) =>
      rw [hf, Res.bind_ok] at hr
      unfold finish at hr
      dsimp only at hr
      cases hu : usubB chk (held s).length i.buf.length with
      | ok d =>
        rw [hu, Res.bind_ok] at hr
        cases hb : Buffer.consume chk d s.buffer with
        | ok b => rw [hb] at hr; cases hr
        | _ => rw [hb] at hr; cases hr
      | _ => rw [hu] at hr; cases hr
    | .ok (.error y e, w1) =>
      rw [hf, Res.bind_ok] at hr
      unfold finish at hr
      dsimp only at hr
      cases hu : usubB chk (held s).length y.length with
      | ok d =>
        rw [hu, Res.bind_ok] at hr
        cases hb : Buffer.consume chk d s.buffer with
        | ok b => rw [hb] at hr; cases hr
        | _ => rw [hb] at hr; cases hr
      | _ => rw [hu] at hr; cases hr
    | .ok (.incomplete n, w1) =>
      rw [hf, Res.bind_ok] at hr
      unfold finish at hr
      dsimp only at hr
      cases hu : uaddB chk (held s).length n with
      | ok m =>
        rw [hu, Res.bind_ok] at hr
        cases he : s.state.endOfInput with
        | true => simp [he] at hr
        | false =>
          simp only [he, Bool.false_eq_true, if_false] at hr
          cases hr
          rw [modeOf_default he] at hf
          exact ⟨rfl, n, _, hf, hu, by simp [he]⟩
      | _ => rw [hu] at hr; cases hr
    | .panic => rw [hf] at hr; cases hr
    | .ub => rw [hf] at hr; cases hr
    | .div => rw [hf] at hr; cases hr

omit [HonestSource S I] in
/-- Running the parser does no I/O. -/
theorem attempt_no_io {chk : Bool} {p : Parser σ I T E} {s s' : Source S B} (h : Usable s) {w w' : σ}
    {e : IoError} : s.attempt chk p w ≠ .ok ((.error (.ioError e), s'), w') := by
  intro hr
  by_cases hne : s.state.endOfInput = true ∧ held s = []
  · rw [attempt_end chk p s w h hne.1 hne.2] at hr
    cases hr
  · rw [attempt_eq chk p s w h hne] at hr
    match hf : p ⟨modeOf s, held s⟩ w with
    | .ok (.data i t, w1) =>
      rw [hf, Res.bind_ok] at hr
      unfold finish at hr
      dsimp only at hr
      cases hu : usubB chk (held s).length i.buf.length with
      | ok d =>
        rw [hu, Res.bind_ok] at hr
        cases hb : Buffer.consume chk d s.buffer with
        | ok b => rw [hb] at hr; cases hr
        | _ => rw [hb] at hr; cases hr
      | _ => rw [hu] at hr; cases hr
    | .ok (.error y e, w1) =>
      rw [hf, Res.bind_ok] at hr
      unfold finish at hr
      dsimp only at hr
      cases hu : usubB chk (held s).length y.length with
      | ok d =>
        rw [hu, Res.bind_ok] at hr
        cases hb : Buffer.consume chk d s.buffer with
        | ok b => rw [hb] at hr; cases hr
        | _ => rw [hb] at hr; cases hr
      | _ => rw [hu] at hr; cases hr
    | .ok (.incomplete n, w1) =>
      rw [hf, Res.bind_ok] at hr
      unfold finish at hr
      dsimp only at hr
      cases hu : uaddB chk (held s).length n with
      | ok m =>
        rw [hu, Res.bind_ok] at hr
        cases he : s.state.endOfInput with
        | true => simp [he] at hr
        | false => simp [he] at hr
      | _ => rw [hu] at hr; cases hr
    | .panic => rw [hf] at hr; cases hr
    | .ub => rw [hf] at hr; cases hr
    | .div => rw [hf] at hr; cases hr

/-- A turn of the retry loop which is not the last: there is less to do. -/
theorem parse_again {rem : S → List I} {errs : S → Nat} (hd : Delivers S rem errs) (chk : Bool)
    {p : Parser σ I T E} (s s' : Source S B) (h : Usable s) (ha : s.state.automaticFill = true)
    (hp : ∀ x y w n w', ahead rem s = x ++ y → p ⟨.default, x⟩ w = .ok (.incomplete n, w') →
      1 ≤ n ∧ x.length + n ≤ usizeMax)
    {r : Except (StreamError I E) T} {w w' : σ} (hr : s.parse chk p w = .ok ((r, s'), w'))
    (hn : r = .error .retry ∨ ∃ e, r = .error (.ioError e)) :
    Usable s' ∧ s'.state.automaticFill = true ∧ ahead rem s' = ahead rem s ∧
      todo rem errs s' < todo rem errs s := by
  rw [Source.parse_eq] at hr
  have run : ∀ s1 : Source S B, Usable s1 → s1.state.automaticFill = true →
      ahead rem s1 = ahead rem s → s1.attempt chk p w = .ok ((r, s'), w') →
      (s1.state.endOfInput = false →
        2 * (errs s1.source + (rem s1.source).length) < todo rem errs s) →
      Usable s' ∧ s'.state.automaticFill = true ∧ ahead rem s' = ahead rem s ∧
        todo rem errs s' < todo rem errs s := by
    intro s1 h1 h2 h3 h4 h5
    rcases hn with rfl | ⟨e, rfl⟩
    · obtain ⟨g1, n, m, g2, g3, rfl⟩ := attempt_retry h1 h4
      obtain ⟨k1, k2⟩ := hp (held s1) (rem s1.source) w n w' h3.symm g2
      rw [uaddB_ok k2] at g3
      cases g3
      refine ⟨h1, h2, h3, ?_⟩
      have := h5 g1
      unfold todo at this ⊢
      rw [if_pos ⟨rfl, by show (held s1).length < max 1 ((held s1).length + n); omega⟩]
      exact this
    · exact absurd h4 (attempt_no_io h1)
  by_cases hi : s.state.incomplete = true
  · rw [if_pos (by simp [hi, ha])] at hr
    rcases fill_spec chk s h with ⟨h1, _⟩ | ⟨e, s1, xs, h1, h2⟩ | ⟨n, s1, xs, h1, h2⟩
    · rw [h1] at hr; cases hr
    · rw [h1, Res.bind_ok] at hr
      cases hr
      have hrd := h2.reads.rem hd
      obtain ⟨g1, g2⟩ := h2.err e rfl
      refine ⟨h2.usable, by rw [h2.state]; exact ha, ?_, ?_⟩
      · unfold ahead; rw [h2.held, hrd.1, List.append_assoc]
      · unfold todo
        have := g2.errs hd
        have := congrArg List.length hrd.1
        rw [List.length_append] at this
        dsimp only
        split <;> split <;> omega
    · rw [h1, Res.bind_ok] at hr
      have hrd := h2.reads.rem hd
      have hl : (rem s.source).length = xs.length + (rem s1.source).length := by
        rw [hrd.1, List.length_append]
      obtain ⟨g1, g2⟩ := h2.ok n rfl
      refine run { s1 with state := afterFill s1 } h2.usable
        (by show s1.state.automaticFill = true; rw [h2.state]; exact ha) ?_ hr ?_
      · show held s1 ++ rem s1.source = _
        unfold ahead; rw [h2.held, hrd.1, List.append_assoc]
      · intro he
        change (!decide ((held s1).length ≥ max 1 s1.request)) = false at he
        rw [h2.request_eq] at he
        have he : max 1 s.request ≤ (held s1).length := by simpa using he
        have hh := congrArg List.length h2.held
        rw [List.length_append] at hh
        have := hrd.2
        unfold todo
        show 2 * (errs s1.source + (rem s1.source).length) < _
        by_cases hlt : (held s).length < max 1 s.request
        · omega
        · rw [if_neg (fun hh => hlt hh.2)]; omega
  · rw [if_neg (by simp [hi]), Res.bind_ok] at hr
    refine run s h ha rfl hr (fun _ => ?_)
    unfold todo
    rw [if_neg (fun hh => hi hh.1)]
    omega

/-! ### The buffers of the crate -/

/-- `Spacious` is the room there is. -/
@[reducible] def ofLawful {B I : Type} [Buffer B I] [LawfulBuffer B I] : OwnBuffer B I where
  Inv := LawfulBuffer.Inv
  view := LawfulBuffer.view
  Holds := LawfulBuffer.CanHold
  Spacious b t := t ≤ (LawfulBuffer.view b).length + LawfulBuffer.room b
  size h := by have := LawfulBuffer.size h; omega
  holds_size h hl hc := canHold_usize h hl hc
  deref := LawfulBuffer.deref
  len := LawfulBuffer.len
  consume chk h hn := by
    obtain ⟨b', h1, h2, h3, _, _, h4⟩ := LawfulBuffer.consume chk h hn
    exact ⟨b', h1, h2, h3, h4⟩
  request chk n h := by
    rcases LawfulBuffer.request chk n h with h1 | ⟨b', h1, h2, h3, _, h4⟩
    · exact .inl h1
    · exact .inr ⟨b', h1, h2, h3, h4⟩
  request_fits {b n} chk h hc := by
    obtain ⟨b', h1, h2⟩ := LawfulBuffer.request_fits chk h hc
    refine ⟨b', h1, ?_⟩
    rcases LawfulBuffer.request chk n h with h3 | ⟨b2, h3, _, h4, _⟩
    · rw [h1] at h3; cases h3
    · rw [h1] at h3
      cases h3
      rw [h4]
      omega
  fill {S b} _ _ chk s h := by
    obtain ⟨b', h1, h2, h3, h4, h5, h6⟩ := LawfulBuffer.fill chk s h
    have hl : (LawfulBuffer.view b').length =
        (LawfulBuffer.view b).length + (DataSource.read s (LawfulBuffer.room b)).1.items.length := by
      rw [h3, List.length_append]
    refine ⟨_, _, b', _, h1, ?_, h2, h3, h6, fun t ht => by omega, fun n hn => ?_, fun hn t ht hlt => ?_, fun e he => ?_⟩
    · exact Reads.one s _
    · exact Nat.le_of_eq (HonestSource.honest s _ _ hn).2.symm
    · have h0 := (HonestSource.honest s _ _ hn).2
      refine ⟨LawfulBuffer.room b, by omega, ?_⟩
      rw [List.length_eq_zero_iff.mp h0]
      exact ⟨s, .done, rfl, hn, List.length_eq_zero_iff.mp h0⟩
    · have h0 : (DataSource.read s (LawfulBuffer.room b)).1.items = [] := by simp [ReadOut.items, he]
      refine ⟨LawfulBuffer.room b, ?_⟩
      rw [h0]
      exact ⟨s, .done, rfl, he, h0⟩

/-! ### A buffer which reads as much as it can -/

theorem Greedy.reads_spec (limit : Nat) :
    ∀ (n total : Nat) (s : S) (items : List I), items.length ≤ limit → limit - items.length ≤ n →
    ∃ r s' xs, Greedy.reads limit n total s items = (r, s', ⟨items ++ xs, limit⟩) ∧ Reads s xs s' ∧
      (items ++ xs).length ≤ limit ∧ (∀ k, r = .ok k → k = total + xs.length ∧
        ((items ++ xs).length < limit → ∃ k, 0 < k ∧ LastRead s xs k (.ok 0) s')) ∧
      (∀ e, r = .error e → ∃ k, LastRead s xs k (.error e) s') := by
  intro n
  induction n with
  | zero =>
    intro total s items h1 h2
    refine ⟨.ok total, s, [], by rw [List.append_nil]; rfl, .done, by simpa using h1, fun k hk => ?_, nofun⟩
    cases hk
    exact ⟨rfl, fun h => by rw [List.append_nil] at h; omega⟩
  | succ n ih =>
    intro total s items h1 h2
    unfold Greedy.reads
    dsimp only
    match hr : (DataSource.read s (limit - items.length)).1.result with
    | .error e =>
      have h0 : (DataSource.read s (limit - items.length)).1.items = [] := by simp [ReadOut.items, hr]
      refine ⟨.error e, (DataSource.read s (limit - items.length)).2, [], by rw [List.append_nil], ?_, by simpa using h1, nofun, fun e' he => ?_⟩
      · have := Reads.one s (limit - items.length)
        rwa [h0] at this
      · cases he
        exact ⟨_, s, .done, rfl, hr, h0⟩
    | .ok 0 =>
      have h0 := List.length_eq_zero_iff.mp (HonestSource.honest s _ _ hr).2
      refine ⟨.ok total, (DataSource.read s (limit - items.length)).2, [], by rw [List.append_nil]; rfl, ?_, by simpa using h1, fun k hk => ?_, nofun⟩
      · have := Reads.one s (limit - items.length)
        rwa [h0] at this
      · cases hk
        refine ⟨rfl, fun hlt => ⟨limit - items.length, ?_, s, .done, rfl, hr, h0⟩⟩
        rw [List.append_nil] at hlt
        omega
    | .ok (k + 1) =>
      obtain ⟨hk, hn⟩ := HonestSource.honest s _ _ hr
      have hlen : (items ++ (DataSource.read s (limit - items.length)).1.items).length = items.length + (k + 1) := by
        rw [List.length_append, hn]
      obtain ⟨r, s', xs, g1, g2, g3, g4, g5⟩ := ih (total + (k + 1)) (DataSource.read s (limit - items.length)).2
        (items ++ (DataSource.read s (limit - items.length)).1.items) (by omega) (by omega)
      refine ⟨r, s', (DataSource.read s (limit - items.length)).1.items ++ xs, by
          rw [← List.append_assoc]; exact g1, .step _ g2,
        by rw [← List.append_assoc]; exact g3, fun m hm => ?_, fun e he => ?_⟩
      · obtain ⟨k1, k2⟩ := g4 m hm
        refine ⟨by rw [k1, List.length_append, hn]; omega, fun hlt => ?_⟩
        rw [← List.append_assoc] at hlt
        obtain ⟨j, j1, s1, j2, j3⟩ := k2 hlt
        exact ⟨j, j1, s1, .step _ j2, j3⟩
      · obtain ⟨j, s1, j2, j3⟩ := g5 e he
        exact ⟨j, s1, .step _ j2, j3⟩

instance : OwnBuffer (Greedy I) I where
  Inv b := b.items.length ≤ b.limit ∧ b.limit ≤ usizeMax
  view b := b.items
  Holds b t := t ≤ b.limit ∧ b.limit ≤ usizeMax
  Spacious b t := t ≤ b.limit
  size h := Nat.le_trans h.1 h.2
  holds_size _ _ h := Nat.le_trans h.1 h.2
  deref _ := rfl
  len _ _ := rfl
  consume {b n} _ h hn := ⟨{ b with items := b.items.drop n }, if_pos hn,
    ⟨Nat.le_trans (by rw [List.length_drop]; exact Nat.sub_le _ _) h.1, h.2⟩, rfl, fun _ ht => ht⟩
  request {b} chk n h := by
    by_cases hn : b.items.length + n ≤ b.limit
    · exact .inr ⟨b, if_pos hn, h, rfl, fun _ ht => ht⟩
    · exact .inl (if_neg hn)
  request_fits {b n} _ _ hc := ⟨b, if_pos hc.1, hc.1⟩
  fill {S b} _ _ chk s h := by
    obtain ⟨r, s', xs, g1, g2, g3, g4, g5⟩ := Greedy.reads_spec b.limit (b.limit - b.items.length) 0 s b.items h.1
      (Nat.le_refl _)
    refine ⟨r, s', _, xs, congrArg Res.ok g1, g2, ⟨g3, h.2⟩, rfl, fun _ ht => ht, fun _ ht => ht, fun n hn => ?_,
      fun hn t ht hlt => (g4 0 hn).2 (Nat.lt_of_lt_of_le hlt ht), g5⟩
    rw [(g4 n hn).1, Nat.zero_add]
    exact Nat.le_refl _

/-! ### Buffers without undefined behaviour -/

section
variable {S B I : Type} [DataSource S I] [Buffer B I]

theorem bind_safe {x : Res α} {f : α → Res β} (h1 : x ≠ .ub) (h2 : ∀ a, f a ≠ .ub) : x >>= f ≠ .ub := by
  cases x with
  | ok a => exact h2 a
  | panic => exact nofun
  | ub => exact absurd rfl h1
  | div => exact nofun

theorem bindM_safe {x : M σ α} {f : α → M σ β} {w : σ} (h1 : x w ≠ .ub) (h2 : ∀ a w, f a w ≠ .ub) : (x >>= f) w ≠ .ub := by
  rw [M.bind_apply]
  exact bind_safe h1 fun a => h2 a.1 a.2

theorem lift_safe {x : Res α} {w : σ} (h : x ≠ .ub) : (M.lift x : M σ α) w ≠ .ub := by
  cases x with
  | ub => exact absurd rfl h
  | _ => exact nofun

theorem loop_safe {step : S → M σ (S ⊕ R)} (h : ∀ s w, step s w ≠ .ub) (s : S) (w : σ) : loop step s w ≠ .ub := by
  refine loop_inv (fun _ _ => True) (· ≠ .ub) nofun (fun s w _ => ?_) trivial
  match hs : step s w with
  | .ok (.inl s', w') => exact .inl ⟨s', w', rfl, trivial⟩
  | .ok (.inr r, w') => right; rw [loop_apply, hs]; exact nofun
  | .panic => right; rw [loop_apply, hs]; exact nofun
  | .ub => exact absurd hs (h s w)
  | .div => right; rw [loop_apply, hs]; exact nofun

theorem uaddB_safe (chk : Bool) (a b : Nat) : uaddB chk a b ≠ .ub := by
  unfold uaddB; repeat' split
  all_goals exact nofun

theorem usubB_safe (chk : Bool) (a b : Nat) : usubB chk a b ≠ .ub := by
  unfold usubB; repeat' split
  all_goals exact nofun

theorem fillRequested_safe (hb : Harmless B) (chk : Bool) (request : Nat) (s : Source S B) :
    s.fillRequested chk request ≠ .ub := by
  unfold Source.fillRequested
  refine bind_safe (hb.len _ _) fun l => ?_
  split
  · refine bind_safe (usubB_safe _ _ _) fun d => bind_safe (hb.request _ _ _) fun b => bind_safe ?_ fun x => nofun
    refine loop_safe (fun x w => ?_) _ _
    unfold Source.fillStep
    dsimp only
    refine bindM_safe (lift_safe (hb.len _ _)) fun l w => ?_
    split
    · refine bindM_safe (lift_safe (hb.fill _ _ _)) fun x w => ?_
      split
      · exact nofun
      · exact nofun
      · exact bindM_safe (lift_safe (uaddB_safe _ _ _)) fun _ _ => nofun
    · exact nofun
  · exact nofun

theorem fill_safe (hb : Harmless B) (chk : Bool) (s : Source S B) : s.fill chk ≠ .ub := by
  unfold Source.fill
  refine bind_safe (fillRequested_safe hb _ _ _) fun x => ?_
  match x with
  | (.error e, s') => exact nofun
  | (.ok n, s') => exact bind_safe (hb.len _ _) fun l h => nomatch h

theorem fillBuf_safe (hb : Harmless B) (chk : Bool) (s : Source S B) : s.fillBuf chk ≠ .ub := by
  unfold Source.fillBuf
  refine bind_safe (fillRequested_safe hb _ _ _) fun x => ?_
  match x with
  | (.error e, s') => exact nofun
  | (.ok n, s') => exact bind_safe (hb.deref _) fun l h => nomatch h

theorem read_safe (hb : Harmless B) (chk : Bool) (k : Nat) (s : Source S B) : s.read chk k ≠ .ub := by
  unfold Source.read Source.len
  refine bind_safe (hb.len _ _) fun l => ?_
  have key : ∀ x : Except IoError Nat × Source S B, (match x with
      | (r, s) => match r with
        | .error e => .ok (.error e, s)
        | .ok _ => (do
          let data ← Buffer.deref s.buffer
          let b ← Buffer.consume chk (min k data.length) s.buffer
          .ok (.ok (data.take (min k data.length)), { s with buffer := b })) :
          Res (Except IoError (List I) × Source S B)) ≠ .ub := by
    intro x
    match x with
    | (.error e, s') => exact nofun
    | (.ok n, s') => exact bind_safe (hb.deref _) fun l => bind_safe (hb.consume _ _ _) fun _ h => nomatch h
  dsimp only
  split
  · exact bind_safe (fillRequested_safe hb _ _ _) key
  · exact bind_safe (x := .ok (.ok 0, s)) nofun key

theorem consume_safe (hb : Harmless B) (chk : Bool) (k : Nat) (s : Source S B) : s.consume chk k ≠ .ub :=
  bind_safe (hb.consume _ _ _) fun _ => nofun

theorem isEmpty_safe (hb : Harmless B) (chk : Bool) (s : Source S B) : s.isEmpty chk ≠ .ub := by
  unfold Source.isEmpty Source.len
  split
  · exact bind_safe (hb.len _ _) fun _ => nofun
  · exact nofun

theorem attempt_safe (hb : Harmless B) (chk : Bool) (p : Parser σ I T E) (hp : ∀ i w, p i w ≠ .ub) (s : Source S B) (w : σ) :
    s.attempt chk p w ≠ .ub := by
  unfold attempt
  refine bindM_safe (lift_safe (isEmpty_safe hb _ _)) fun e w => ?_
  split
  · exact nofun
  · refine bindM_safe (lift_safe (hb.deref _)) fun b w => bindM_safe (hp _ _) fun x w => ?_
    cases x with
    | data i t =>
      exact bindM_safe (lift_safe (hb.len _ _)) fun l w => bindM_safe (lift_safe (usubB_safe _ _ _)) fun d w =>
        bindM_safe (lift_safe (hb.consume _ _ _)) fun _ _ => nofun
    | error i t =>
      exact bindM_safe (lift_safe (hb.len _ _)) fun l w => bindM_safe (lift_safe (usubB_safe _ _ _)) fun d w =>
        bindM_safe (lift_safe (hb.consume _ _ _)) fun _ _ => nofun
    | incomplete n =>
      refine bindM_safe (lift_safe (hb.len _ _)) fun l w => bindM_safe (lift_safe (uaddB_safe _ _ _)) fun d w => ?_
      dsimp only
      split <;> exact nofun

theorem parse_safe (hb : Harmless B) (chk : Bool) (p : Parser σ I T E) (hp : ∀ i w, p i w ≠ .ub) (s : Source S B) (w : σ) :
    s.parse chk p w ≠ .ub := by
  rw [parse_eq]
  refine bind_safe ?_ fun x => ?_
  · split
    · exact fill_safe hb _ _
    · exact nofun
  · split
    · exact nofun
    · exact attempt_safe hb chk p hp _ _

theorem retry_safe (hb : Harmless B) (chk : Bool) (p : Parser σ I T E) (hp : ∀ i w, p i w ≠ .ub) (s : Source S B) (w : σ) :
    retry chk p s w ≠ .ub := by
  refine loop_safe (fun s w => ?_) s w
  rw [M.map_apply]
  have := parse_safe hb chk p hp s w
  match h : s.parse chk p w with
  | .ok x => exact nofun
  | .panic => exact nofun
  | .ub => exact absurd h this
  | .div => exact nofun

/-! ### Two buffers which do not do what is asked -/

theorem fill_fresh (chk : Bool) (s : S) (b : B) (h1 : Buffer.len chk b = .ok 0) (h2 : Buffer.requestSpace chk 1 b = .ok b) :
    (Source.withBuffer s b).fill chk = loop (Source.fillStep chk 1) (s, b, 0) () >>= fun x =>
      match x.1 with
      | (.error e, s', b') => .ok (.error e, ⟨s', b', 0, ⟨true, false, true⟩⟩)
      | (.ok n, s', b') => Buffer.len chk b' >>= fun l => .ok (.ok n, ⟨s', b', 0, ⟨false, !decide (l ≥ 1), true⟩⟩) := by
  have h3 : (Source.withBuffer s b).fillRequested chk 1 = loop (Source.fillStep chk 1) (s, b, 0) () >>= fun x =>
      .ok (x.1.1, ⟨x.1.2.1, x.1.2.2, 0, ⟨true, false, true⟩⟩) := by
    unfold Source.fillRequested
    rw [show (Source.withBuffer s b).buffer = b from rfl, h1, Res.bind_ok, if_pos (by omega), usubB_ok (by omega),
      Res.bind_ok, h2, Res.bind_ok]
    rfl
  unfold Source.fill
  rw [show max 1 (Source.withBuffer s b).request = 1 from rfl]
  dsimp only
  rw [h3]
  cases loop (Source.fillStep chk 1) (s, b, 0) () with
  | ok x =>
    obtain ⟨⟨r, s', b'⟩, _⟩ := x
    cases r <;> rfl
  | _ => rfl

theorem claimer_step (chk : Bool) (s : S) (n : Nat) : Source.fillStep chk 1 (s, (⟨⟩ : Claimer I), n) () =
    uaddB chk n 1 >>= fun m => .ok (.inl (s, ⟨⟩, m), ()) := by
  unfold Source.fillStep
  dsimp only
  rw [show Buffer.len chk (⟨⟩ : Claimer I) = .ok 0 from rfl, M.bind_ok (M.lift_ok _ _), if_pos (by omega),
    show Buffer.fill chk s (⟨⟩ : Claimer I) = .ok (.ok 1, s, ⟨⟩) from rfl, M.bind_ok (M.lift_ok _ _)]
  exact M.lift_bind _ _ _

theorem claimer_release (s : S) (n : Nat) : loop (Source.fillStep false 1) (s, (⟨⟩ : Claimer I), n) () = .div := by
  refine loop_spins (fun x _ => ∃ s n, x = (s, (⟨⟩ : Claimer I), n)) ?_ ⟨s, n, rfl⟩
  rintro _ w ⟨s, n, rfl⟩
  obtain ⟨m, hm⟩ : ∃ m, uaddB false n 1 = .ok m := by
    unfold uaddB; repeat' split
    all_goals first | exact ⟨_, rfl⟩ | contradiction
  exact ⟨_, _, by rw [claimer_step, hm]; rfl, s, m, rfl⟩

theorem claimer_debug (s : S) (k n : Nat) (h : n + k = usizeMax) :
    loop (Source.fillStep true 1) (s, (⟨⟩ : Claimer I), n) () = .panic := by
  induction k generalizing n with
  | zero =>
    rw [loop_apply, claimer_step]
    have : uaddB true n 1 = .panic := by
      unfold uaddB
      rw [if_neg (by omega)]
      rfl
    rw [this]
    rfl
  | succ k ih =>
    rw [loop_apply, claimer_step, uaddB_ok (by omega)]
    exact ih (n + 1) (by omega)

end

end Chomp.Own
