import Verif.Lemmas.Built
import Verif.Lemmas.Script
import Verif.Spec.Source

set_option linter.unusedSectionVars false

namespace Chomp

open Spec

variable {S B I : Type} [DataSource S I] [HonestSource S I] [Buffer B I] [LawfulBuffer B I]

theorem M.lift_bind {α β σ : Type} (x : Res α) (k : α → M σ β) (w : σ) :
    ((M.lift x : M σ α) >>= k) w = x >>= fun a => k a w := by
  cases x <;> rfl

theorem Spec.LastRead.reads {s s' : S} {xs : List I} {k : Nat} {r : Except IoError Nat}
    (h : LastRead s xs k r s') : Reads s xs s' := by
  obtain ⟨s1, h1, h2, _, h4⟩ := h
  have := h1.trans (Reads.one s1 k)
  rw [h4, List.append_nil, h2] at this
  exact this

/-- A budget for reads: those which deliver something or fail are paid for. -/
structure Budget (S : Type) {I : Type} [DataSource S I] (b : S → Nat) : Prop where
  zero : ∀ s k, (DataSource.read s k).1.result = .ok 0 → b (DataSource.read s k).2 ≤ b s + 1
  succ : ∀ s k n, (DataSource.read s k).1.result = .ok (n + 1) → b (DataSource.read s k).2 ≤ b s
  err : ∀ s k e, (DataSource.read s k).1.result = .error e → b (DataSource.read s k).2 ≤ b s

/-- What the loop of `fill_requested` does. -/
structure FillRun (request : Nat) (s : S) (b : B) (read : Nat) (r : Except IoError Nat) (s' : S)
    (b' : B) (xs : List I) : Prop where
  inv : LawfulBuffer.Inv b'
  view : LawfulBuffer.view b' = LawfulBuffer.view b ++ xs
  cap : Buffer.capacity b' = Buffer.capacity b
  hold : ∀ t, LawfulBuffer.CanHold b t → LawfulBuffer.CanHold b' t
  room : LawfulBuffer.room b' + xs.length = LawfulBuffer.room b
  reads : Reads s xs s'
  ok : ∀ n, r = .ok n → n = read + xs.length ∧
    (request ≤ (LawfulBuffer.view b').length ∨
      (LawfulBuffer.view b').length < request ∧ LastRead s xs (LawfulBuffer.room b') (.ok 0) s')
  err : ∀ e, r = .error e → (LawfulBuffer.view b').length < request ∧
    LastRead s xs (LawfulBuffer.room b') (.error e) s'
  budget : ∀ m, Budget S m → m s' ≤ m s + 1 ∧
    (request ≤ (LawfulBuffer.view b').length ∨ (∃ e, r = .error e) → m s' ≤ m s)
  below : ∀ Q : S → Nat → Prop, (∀ s n k, n < request → Q s n →
      Q (DataSource.read s k).2 (n + (DataSource.read s k).1.items.length)) →
    Q s (LawfulBuffer.view b).length → Q s' (LawfulBuffer.view b').length

/-- What the loop of `fill_requested` does with the result of `fill`. -/
def fillCase (chk : Bool) (read : Nat) :
    Except IoError Nat × S × B → Res (((S × B × Nat) ⊕ (Except IoError Nat × S × B)) × Unit)
  | (.error e, source, buffer) => .ok (.inr (.error e, source, buffer), ())
  | (.ok 0, source, buffer) => .ok (.inr (.ok read, source, buffer), ())
  | (.ok (n + 1), source, buffer) =>
    uaddB chk read (n + 1) >>= fun read => .ok (.inl (source, buffer, read), ())

theorem fillLoop (chk : Bool) (request : Nat) (s : S) (b : B) (read : Nat)
    (h : LawfulBuffer.Inv b) (hr : read + LawfulBuffer.room b ≤ usizeMax) :
    ∃ r s' b' xs, loop (Source.fillStep chk request) (s, b, read) () = .ok ((r, s', b'), ()) ∧
      FillRun request s b read r s' b' xs := by
  generalize hm : LawfulBuffer.room b = m
  induction m using Nat.strongRecOn generalizing s b read with
  | _ m ih =>
    rw [loop_apply]
    have e : Source.fillStep chk request (s, b, read) () =
        if (LawfulBuffer.view b).length < request then
          Buffer.fill chk s b >>= fillCase chk read
        else .ok (.inr (.ok read, s, b), ()) := by
      unfold Source.fillStep
      dsimp only
      rw [LawfulBuffer.len chk h, M.bind_ok (M.lift_ok _ _)]
      split
      · rw [M.lift_bind]
        congr 1
        funext x
        match x with
        | (.error e, source, buffer) => rfl
        | (.ok 0, source, buffer) => rfl
        | (.ok (n + 1), source, buffer) => exact M.lift_bind _ _ _
      · rfl
    rw [e]
    by_cases hlt : (LawfulBuffer.view b).length < request
    · rw [if_pos hlt]
      obtain ⟨b1, h1, h2, h3, h4, h5, h6⟩ := LawfulBuffer.fill chk s h
      rw [h1, Res.bind_ok]
      match hres : (DataSource.read s (LawfulBuffer.room b)).1.result with
      | .error e =>
        have hit : (DataSource.read s (LawfulBuffer.room b)).1.items = [] := by
          simp [ReadOut.items, hres]
        have hroom : LawfulBuffer.room b1 = LawfulBuffer.room b := by simpa [hit] using h4
        refine ⟨_, _, b1, [], rfl, h2, by simpa [hit] using h3, h5, h6, by simpa using hroom,
          by simpa [hit] using Reads.one s (LawfulBuffer.room b), ?_, ?_, ?_, fun Q hQ h0 => by
            rw [h3, List.length_append]; exact hQ s _ _ hlt h0⟩
        · intro n hn; cases hn
        · intro e' he
          cases he
          refine ⟨by rw [h3, hit, List.append_nil]; exact hlt, s, .done, ?_, ?_, ?_⟩ <;> rw [hroom]
          · exact hres
          · exact hit
        · intro m hm
          have := hm.err s _ e hres
          exact ⟨by omega, fun _ => this⟩
      | .ok 0 =>
        have hit : (DataSource.read s (LawfulBuffer.room b)).1.items = [] :=
          List.length_eq_zero_iff.mp (HonestSource.honest s _ 0 hres).2
        have hroom : LawfulBuffer.room b1 = LawfulBuffer.room b := by simpa [hit] using h4
        refine ⟨_, _, b1, [], rfl, h2, by simpa [hit] using h3, h5, h6, by simpa using hroom,
          by simpa [hit] using Reads.one s (LawfulBuffer.room b), ?_, ?_, ?_, fun Q hQ h0 => by
            rw [h3, List.length_append]; exact hQ s _ _ hlt h0⟩
        · intro n hn
          cases hn
          refine ⟨rfl, .inr ⟨by rw [h3, hit, List.append_nil]; exact hlt, s, .done, ?_, ?_, ?_⟩⟩ <;>
            rw [hroom]
          · exact hres
          · exact hit
        · intro e he; cases he
        · intro m hm
          refine ⟨hm.zero s _ hres, ?_⟩
          rintro (hr | ⟨e, he⟩)
          · rw [h3, hit, List.append_nil] at hr; omega
          · cases he
      | .ok (n + 1) =>
        have hn := (HonestSource.honest s _ _ hres).2
        rw [hn] at h4
        rw [show fillCase chk read (.ok (n + 1), (DataSource.read s (LawfulBuffer.room b)).2, b1) =
          .ok (.inl ((DataSource.read s (LawfulBuffer.room b)).2, b1, read + (n + 1)), ()) by
            show (uaddB chk read (n + 1) >>= _) = _; rw [uaddB_ok (by omega)]; rfl]
        dsimp only [Res.bind_ok]
        obtain ⟨r, s', b', xs, g1, g2⟩ := ih (LawfulBuffer.room b1) (by omega)
          (DataSource.read s (LawfulBuffer.room b)).2 b1 (read + (n + 1)) h2 (by omega) rfl
        refine ⟨r, s', b', (DataSource.read s (LawfulBuffer.room b)).1.items ++ xs, g1, g2.inv, ?_,
          g2.cap.trans h5, fun t ht => g2.hold t (h6 t ht), ?_, .step _ g2.reads, ?_, ?_, ?_,
          fun Q hQ h0 => g2.below Q hQ (by rw [h3, List.length_append]; exact hQ s _ _ hlt h0)⟩
        · rw [g2.view, h3, List.append_assoc]
        · have := g2.room
          rw [List.length_append, hn]; omega
        · intro k hk
          obtain ⟨k1, k2⟩ := g2.ok k hk
          refine ⟨by rw [k1, List.length_append, hn]; omega, k2.imp_right ?_⟩
          rintro ⟨k3, s1, k4, k5⟩
          exact ⟨k3, s1, .step _ k4, k5⟩
        · intro e he
          obtain ⟨k3, s1, k4, k5⟩ := g2.err e he
          exact ⟨k3, s1, .step _ k4, k5⟩
        · intro m hm
          have h0 := hm.succ s _ n hres
          obtain ⟨k1, k2⟩ := g2.budget m hm
          exact ⟨by omega, fun hr => Nat.le_trans (k2 hr) h0⟩
    · rw [if_neg hlt]
      refine ⟨_, _, _, [], rfl, h, by simp, rfl, fun t ht => ht, by simp, .done, ?_, ?_, ?_,
        fun Q _ h0 => h0⟩
      · intro n hn
        cases hn
        exact ⟨rfl, .inl (by omega)⟩
      · intro e he; cases he
      · intro m _; exact ⟨Nat.le_succ _, fun _ => Nat.le_refl _⟩

namespace Source

/-- What `fill_requested` does. -/
structure Filled (chk : Bool) (request : Nat) (s : Source S B) (r : Except IoError Nat) (s' : Source S B)
    (xs : List I) : Prop where
  usable : Usable s'
  held : held s' = held s ++ xs
  request_eq : s'.request = s.request
  state : s'.state = s.state
  cap : Buffer.capacity s.buffer ≤ Buffer.capacity s'.buffer
  hold : ∀ t, LawfulBuffer.CanHold s.buffer t → LawfulBuffer.CanHold s'.buffer t
  reads : Reads s.source xs s'.source
  none : request ≤ (Spec.held s).length → s' = s ∧ r = .ok 0
  space : (Spec.held s).length < request → ∃ b1,
    Buffer.requestSpace chk (request - (Spec.held s).length) s.buffer = .ok b1 ∧
    LawfulBuffer.room s'.buffer + xs.length = LawfulBuffer.room b1 ∧
    Buffer.capacity s'.buffer = Buffer.capacity b1
  fits : LawfulBuffer.CanHold s.buffer request →
    request ≤ (Spec.held s).length ∨ request ≤ (Spec.held s').length + LawfulBuffer.room s'.buffer
  ok : ∀ n, r = .ok n → n = xs.length ∧
    (request ≤ (Spec.held s').length ∨
      (Spec.held s').length < request ∧
        LastRead s.source xs (LawfulBuffer.room s'.buffer) (.ok 0) s'.source)
  err : ∀ e, r = .error e → (Spec.held s').length < request ∧
    LastRead s.source xs (LawfulBuffer.room s'.buffer) (.error e) s'.source
  budget : ∀ m, Budget S m → m s'.source ≤ m s.source + 1 ∧
    (request ≤ (Spec.held s').length ∨ (∃ e, r = .error e) → m s'.source ≤ m s.source)
  below : ∀ Q : S → Nat → Prop, (∀ s n k, n < request → Q s n →
      Q (DataSource.read s k).2 (n + (DataSource.read s k).1.items.length)) →
    Q s.source (Spec.held s).length → Q s'.source (Spec.held s').length

theorem fillRequested_spec (chk : Bool) (request : Nat) (s : Source S B) (h : Usable s) :
    (fillRequested chk request s = .panic ∧ (held s).length < request ∧
      Buffer.requestSpace chk (request - (held s).length) s.buffer = .panic) ∨
    ∃ r s' xs, fillRequested chk request s = .ok (r, s') ∧ Filled chk request s r s' xs := by
  unfold fillRequested
  rw [LawfulBuffer.len chk h, Res.bind_ok]
  change (if (held s).length < request then _ else _) = _ ∧ _ ∨ ∃ r s' xs,
    (if (held s).length < request then _ else _) = _ ∧ _
  by_cases hlt : (held s).length < request
  · simp only [if_pos hlt]
    have hd : usubB chk request (LawfulBuffer.view s.buffer).length = .ok (request - (held s).length) :=
      usubB_ok (Nat.le_of_lt hlt)
    rw [hd, Res.bind_ok]
    have hb : LawfulBuffer.Inv s.buffer := h
    rcases LawfulBuffer.request chk (request - (held s).length) hb with hp | ⟨b1, h1, h2, h3, h4, h5⟩
    · rw [hp]; exact .inl ⟨rfl, hlt, rfl⟩
    · right
      rw [h1, Res.bind_ok]
      obtain ⟨r, s', b', xs, g1, g⟩ := fillLoop chk request s.source b1 0 h2
        (by have := LawfulBuffer.size h2; omega)
      rw [g1]
      refine ⟨r, _, xs, rfl, g.inv, ?_, rfl, rfl, ?_, fun t ht => g.hold t (h5 t ht), g.reads, ?_, ?_,
        ?_, ?_, ?_, g.budget, fun Q hQ h0 => g.below Q hQ (by rw [h3]; exact h0)⟩
      · show LawfulBuffer.view b' = LawfulBuffer.view s.buffer ++ xs
        rw [g.view, h3]
      · have := g.cap
        dsimp only
        omega
      · intro hle; omega
      · intro _; exact ⟨b1, h1, g.room, g.cap⟩
      · intro hc
        right
        have e : request = (LawfulBuffer.view s.buffer).length + (request - (held s).length) := by
          have : (held s).length = (LawfulBuffer.view s.buffer).length := rfl
          omega
        rw [e] at hc
        obtain ⟨b2, k1, k2⟩ := LawfulBuffer.request_fits chk hb hc
        rw [h1] at k1
        cases k1
        have h6 : (held { s with source := s', buffer := b' }).length = (held s).length + xs.length := by
          show (LawfulBuffer.view b').length = (LawfulBuffer.view s.buffer).length + _
          rw [g.view, h3, List.length_append]
        have := g.room
        dsimp only at h6 ⊢
        omega
      · intro n hn
        obtain ⟨k1, k2⟩ := g.ok n hn
        exact ⟨by omega, k2⟩
      · intro e he; exact g.err e he
  · right
    simp only [if_neg hlt]
    refine ⟨_, _, [], rfl, h, by simp, rfl, rfl, Nat.le_refl _, fun t ht => ht, .done,
      fun _ => ⟨rfl, rfl⟩, fun hl => absurd hl hlt, fun _ => .inl (by omega), ?_, ?_,
      fun m _ => ⟨Nat.le_succ _, fun _ => Nat.le_refl _⟩, fun Q _ h0 => h0⟩
    · intro n hn
      cases hn
      exact ⟨rfl, .inl (by omega)⟩
    · intro e he; cases he

theorem read_eq (chk : Bool) (k : Nat) (s : Source S B) (h : Usable s) :
    s.read chk k = fillRequested chk k s >>= fun x => match x.1 with
      | .error e => .ok (.error e, x.2)
      | .ok _ => Buffer.deref x.2.buffer >>= fun data =>
        Buffer.consume chk (min k data.length) x.2.buffer >>= fun b =>
        .ok (.ok (data.take (min k data.length)), { x.2 with buffer := b }) := by
  have hb : LawfulBuffer.Inv s.buffer := h
  unfold read len
  rw [LawfulBuffer.len chk hb, Res.bind_ok]
  by_cases hk : k > (LawfulBuffer.view s.buffer).length
  · rw [if_pos hk]; rfl
  · rw [if_neg hk]
    have : fillRequested chk k s = .ok (.ok 0, s) := by
      unfold fillRequested
      rw [LawfulBuffer.len chk hb, Res.bind_ok, if_neg (by omega)]
    rw [this]
    rfl

/-- What `read` does. -/
theorem read_spec (chk : Bool) (k : Nat) (s : Source S B) (h : Usable s) :
    (s.read chk k = .panic ∧ (held s).length < k ∧
      Buffer.requestSpace chk (k - (held s).length) s.buffer = .panic) ∨
    (∃ e s' xs, s.read chk k = .ok (.error e, s') ∧ Filled chk k s (.error e) s' xs) ∨
    ∃ n s1 xs b, s.read chk k = .ok (.ok ((held s1).take k), { s1 with buffer := b }) ∧
      Filled chk k s (.ok n) s1 xs ∧ LawfulBuffer.Inv b ∧ LawfulBuffer.view b = (held s1).drop k ∧
      LawfulBuffer.room b = LawfulBuffer.room s1.buffer ∧
      Buffer.capacity b = Buffer.capacity s1.buffer ∧
      ∀ t, LawfulBuffer.CanHold s1.buffer t → LawfulBuffer.CanHold b t := by
  rw [read_eq chk k s h]
  rcases fillRequested_spec chk k s h with ⟨h1, h2⟩ | ⟨r, s1, xs, h1, h2⟩
  · rw [h1]; exact .inl ⟨rfl, h2⟩
  · right
    rw [h1, Res.bind_ok]
    cases r with
    | error e => exact .inl ⟨e, s1, xs, rfl, h2⟩
    | ok n =>
      right
      have hb : LawfulBuffer.Inv s1.buffer := h2.usable
      dsimp only
      rw [LawfulBuffer.deref hb, Res.bind_ok]
      obtain ⟨b, g1, g2, g3, g4⟩ := LawfulBuffer.consume
        (n := min k (LawfulBuffer.view s1.buffer).length) chk hb (Nat.min_le_right _ _)
      rw [g1]
      have e1 : (held s1).take k =
          (LawfulBuffer.view s1.buffer).take (min k (LawfulBuffer.view s1.buffer).length) := by
        rw [List.take_eq_take_min]; rfl
      refine ⟨n, s1, xs, b, by rw [e1]; rfl, h2, g2, ?_, g4⟩
      rw [g3]
      show _ = (LawfulBuffer.view s1.buffer).drop k
      by_cases hk : k ≤ (LawfulBuffer.view s1.buffer).length
      · rw [Nat.min_eq_left hk]
      · rw [Nat.min_eq_right (by omega), List.drop_length, List.drop_of_length_le (by omega)]

/-- What `fill_buf` does. -/
theorem fillBuf_spec (chk : Bool) (s : Source S B) (h : Usable s) :
    (s.fillBuf chk = .panic ∧ (held s).length < Buffer.capacity s.buffer ∧
      Buffer.requestSpace chk (Buffer.capacity s.buffer - (held s).length) s.buffer = .panic) ∨
    (∃ e s' xs, s.fillBuf chk = .ok (.error e, s') ∧
      Filled chk (Buffer.capacity s.buffer) s (.error e) s' xs) ∨
    ∃ n s' xs, s.fillBuf chk = .ok (.ok (held s'), s') ∧
      Filled chk (Buffer.capacity s.buffer) s (.ok n) s' xs := by
  unfold fillBuf
  dsimp only
  rcases fillRequested_spec chk (Buffer.capacity s.buffer) s h with ⟨h1, h2⟩ | ⟨r, s1, xs, h1, h2⟩
  · rw [h1]; exact .inl ⟨rfl, h2⟩
  · right
    rw [h1, Res.bind_ok]
    cases r with
    | error e => exact .inl ⟨e, s1, xs, rfl, h2⟩
    | ok n =>
      right
      have hb : LawfulBuffer.Inv s1.buffer := h2.usable
      dsimp only
      rw [LawfulBuffer.deref hb]
      exact ⟨n, s1, xs, rfl, h2⟩

/-- The flags after `fill`. -/
def afterFill (s : Source S B) : Flags :=
  { s.state with incomplete := false, endOfInput := !decide ((held s).length ≥ max 1 s.request) }

theorem fill_spec (chk : Bool) (s : Source S B) (h : Usable s) :
    (fill chk s = .panic ∧ (held s).length < max 1 s.request ∧
      Buffer.requestSpace chk (max 1 s.request - (held s).length) s.buffer = .panic) ∨
    (∃ e s' xs, fill chk s = .ok (.error e, s') ∧ Filled chk (max 1 s.request) s (.error e) s' xs) ∨
    ∃ n s' xs, fill chk s = .ok (.ok n, { s' with state := afterFill s' }) ∧
      Filled chk (max 1 s.request) s (.ok n) s' xs := by
  unfold fill
  rcases fillRequested_spec chk (max 1 s.request) s h with ⟨h1, h2⟩ | ⟨r, s', xs, h1, h2⟩
  · left; dsimp only; rw [h1]; exact ⟨rfl, h2⟩
  · right
    dsimp only
    rw [h1]
    cases r with
    | error e => exact .inl ⟨e, s', xs, rfl, h2⟩
    | ok n =>
      right
      refine ⟨n, s', xs, ?_, h2⟩
      dsimp only [Res.bind_ok]
      have hu : LawfulBuffer.Inv s'.buffer := h2.usable
      rw [LawfulBuffer.len chk hu, Res.bind_ok]
      unfold afterFill
      rw [h2.request_eq]
      rfl

/-- The part of `parse` after the automatic `fill`. -/
def attempt (chk : Bool) (f : Parser σ I T E) (s : Source S B) :
    M σ (Except (StreamError I E) T × Source S B) := do
  if ← M.lift (s.isEmpty chk) then
    pure (.error .endOfInput, s)
  else
    let b ← M.lift (Buffer.deref s.buffer)
    match ← f ⟨modeOf s, b⟩ with
    | .data remainder data =>
      let l ← M.lift (Buffer.len chk s.buffer)
      let d ← M.lift (usubB chk l remainder.buf.length)
      let b ← M.lift (Buffer.consume chk d s.buffer)
      pure (.ok data, { s with buffer := b })
    | .error remainder err =>
      let l ← M.lift (Buffer.len chk s.buffer)
      let d ← M.lift (usubB chk l remainder.length)
      let b ← M.lift (Buffer.consume chk d s.buffer)
      pure (.error (.parseError remainder err), { s with buffer := b })
    | .incomplete n =>
      let l ← M.lift (Buffer.len chk s.buffer)
      let request ← M.lift (uaddB chk l n)
      let s := { s with request := request }
      if s.state.endOfInput then
        pure (.error (.incomplete request), s)
      else
        pure (.error .retry, { s with state := { s.state with incomplete := true } })

omit [HonestSource S I] [LawfulBuffer B I] in
theorem parse_eq (chk : Bool) (f : Parser σ I T E) (s : Source S B) (w : σ) :
    s.parse chk f w =
      (if s.state.incomplete && s.state.automaticFill then fill chk s else .ok (.ok 0, s)) >>= fun x =>
        match x.1 with
        | .error e => .ok ((.error (.ioError e), x.2), w)
        | .ok _ => x.2.attempt chk f w := by
  unfold parse
  split
  · rw [M.lift_bind]
    congr 1
    funext x
    obtain ⟨r, s⟩ := x
    cases r <;> rfl
  · rfl

omit [HonestSource S I] [LawfulBuffer B I] in
/-- Whatever the parser and the buffer, the part after filling does not touch the data source. -/
theorem attempt_source (chk : Bool) (f : Parser σ I T E) (s : Source S B) (w w' : σ)
    {r : Except (StreamError I E) T} {s' : Source S B}
    (hr : s.attempt chk f w = .ok ((r, s'), w')) :
    s'.source = s.source ∧ s'.state.automaticFill = s.state.automaticFill ∧
      s'.state.endOfInput = s.state.endOfInput := by
  unfold attempt at hr
  rw [M.bind_eq_ok] at hr
  obtain ⟨c, w1, _, hr⟩ := hr
  split at hr
  · cases hr; exact ⟨rfl, rfl, rfl⟩
  · rw [M.bind_eq_ok] at hr
    obtain ⟨b, w2, _, hr⟩ := hr
    rw [M.bind_eq_ok] at hr
    obtain ⟨x, w3, _, hr⟩ := hr
    cases x with
    | data i t =>
      dsimp only at hr
      rw [M.bind_eq_ok] at hr
      obtain ⟨_, w4, _, hr⟩ := hr
      rw [M.bind_eq_ok] at hr
      obtain ⟨_, w5, _, hr⟩ := hr
      rw [M.bind_eq_ok] at hr
      obtain ⟨_, w6, _, hr⟩ := hr
      cases hr; exact ⟨rfl, rfl, rfl⟩
    | error i t =>
      dsimp only at hr
      rw [M.bind_eq_ok] at hr
      obtain ⟨_, w4, _, hr⟩ := hr
      rw [M.bind_eq_ok] at hr
      obtain ⟨_, w5, _, hr⟩ := hr
      rw [M.bind_eq_ok] at hr
      obtain ⟨_, w6, _, hr⟩ := hr
      cases hr; exact ⟨rfl, rfl, rfl⟩
    | incomplete n =>
      dsimp only at hr
      rw [M.bind_eq_ok] at hr
      obtain ⟨_, w4, _, hr⟩ := hr
      rw [M.bind_eq_ok] at hr
      obtain ⟨_, w5, _, hr⟩ := hr
      split at hr
      · cases hr; exact ⟨rfl, rfl, rfl⟩
      · cases hr; exact ⟨rfl, rfl, rfl⟩

omit [HonestSource S I] in
theorem isEmpty_eq (chk : Bool) (s : Source S B) (h : Usable s) :
    s.isEmpty chk = .ok (decide (s.state.endOfInput = true ∧ held s = [])) := by
  unfold isEmpty len
  have hb : LawfulBuffer.Inv s.buffer := h
  rw [LawfulBuffer.len chk hb]
  cases s.state.endOfInput
  · simp
  · have e : held s = LawfulBuffer.view s.buffer := rfl
    simp only [if_true, Res.bind_ok, true_and, e, Res.ok.injEq]
    cases LawfulBuffer.view s.buffer <;> simp

omit [HonestSource S I] in
theorem attempt_end (chk : Bool) (f : Parser σ I T E) (s : Source S B) (w : σ) (h : Usable s)
    (h1 : s.state.endOfInput = true) (h2 : held s = []) :
    s.attempt chk f w = .ok ((.error .endOfInput, s), w) := by
  unfold attempt
  rw [isEmpty_eq chk s h, M.bind_ok (M.lift_ok _ _)]
  simp [h1, h2]

/-- What `parse` does with the result of the parser. -/
def finish (chk : Bool) (s : Source S B) :
    ParseResult I T E × σ → Res ((Except (StreamError I E) T × Source S B) × σ)
  | (.data remainder data, w) =>
    usubB chk (held s).length remainder.buf.length >>= fun d =>
    Buffer.consume chk d s.buffer >>= fun b => .ok ((.ok data, { s with buffer := b }), w)
  | (.error remainder err, w) =>
    usubB chk (held s).length remainder.length >>= fun d =>
    Buffer.consume chk d s.buffer >>= fun b =>
      .ok ((.error (.parseError remainder err), { s with buffer := b }), w)
  | (.incomplete n, w) =>
    uaddB chk (held s).length n >>= fun request =>
      if s.state.endOfInput then .ok ((.error (.incomplete request), { s with request := request }), w)
      else .ok ((.error .retry,
        { s with request := request, state := { s.state with incomplete := true } }), w)

omit [HonestSource S I] in
theorem attempt_eq (chk : Bool) (f : Parser σ I T E) (s : Source S B) (w : σ) (h : Usable s)
    (hn : ¬ (s.state.endOfInput = true ∧ held s = [])) :
    s.attempt chk f w = f ⟨modeOf s, held s⟩ w >>= finish chk s := by
  unfold attempt
  have hb : LawfulBuffer.Inv s.buffer := h
  rw [isEmpty_eq chk s h, M.bind_ok (M.lift_ok _ _)]
  simp only [hn, decide_false, Bool.false_eq_true, if_false]
  rw [LawfulBuffer.deref hb, M.bind_ok (M.lift_ok _ _), M.bind_apply]
  congr 1
  funext x
  obtain ⟨r, w1⟩ := x
  cases r with
  | data i t =>
    simp only [LawfulBuffer.len chk hb, M.lift_bind, Res.bind_ok]; rfl
  | error b e =>
    simp only [LawfulBuffer.len chk hb, M.lift_bind, Res.bind_ok]; rfl
  | incomplete n =>
    simp only [LawfulBuffer.len chk hb, M.lift_bind, Res.bind_ok, finish, held]
    congr 1
    funext req
    split <;> rfl

omit [HonestSource S I] in
/-- Consuming up to a suffix. -/
theorem advance (chk : Bool) (s : Source S B) (h : Usable s) (x y : List I) (hx : held s = x ++ y) :
    ∃ b, (usubB chk (held s).length y.length >>= fun d => Buffer.consume chk d s.buffer) = .ok b ∧
      LawfulBuffer.Inv b ∧ LawfulBuffer.view b = y ∧ LawfulBuffer.room b = LawfulBuffer.room s.buffer ∧
      Buffer.capacity b = Buffer.capacity s.buffer ∧
      ∀ t, LawfulBuffer.CanHold s.buffer t → LawfulBuffer.CanHold b t := by
  have hb : LawfulBuffer.Inv s.buffer := h
  have hv : LawfulBuffer.view s.buffer = x ++ y := hx
  have hl : (held s).length = x.length + y.length := by rw [hx, List.length_append]
  obtain ⟨b, h1, h2, h3, h4⟩ := LawfulBuffer.consume (n := x.length) chk hb (by rw [hv]; simp)
  refine ⟨b, ?_, h2, ?_, h4⟩
  · rw [usubB_ok (by omega), Res.bind_ok, show (held s).length - y.length = x.length by omega, h1]
  · rw [h3, hv]; simp

omit [HonestSource S I] in
theorem attempt_data (chk : Bool) {p : Parser σ I T E} (hp : Built everything p) (s : Source S B)
    (w w' : σ) (h : Usable s) (hn : ¬ (s.state.endOfInput = true ∧ held s = [])) {i : Input I} {t : T}
    (hr : p ⟨modeOf s, held s⟩ w = .ok (.data i t, w')) :
    ∃ b, s.attempt chk p w = .ok ((.ok t, { s with buffer := b }), w') ∧ i.mode = modeOf s ∧
      LawfulBuffer.Inv b ∧ LawfulBuffer.view b = i.buf ∧
      LawfulBuffer.room b = LawfulBuffer.room s.buffer ∧
      Buffer.capacity b = Buffer.capacity s.buffer ∧
      ∀ t, LawfulBuffer.CanHold s.buffer t → LawfulBuffer.CanHold b t := by
  have hg := Built.good hp ⟨modeOf s, held s⟩ w
  rw [hr] at hg
  obtain ⟨hm, x, hx⟩ := hg
  obtain ⟨b, h1, h2⟩ := advance chk s h x i.buf hx.symm
  refine ⟨b, ?_, hm, h2⟩
  rw [attempt_eq chk p s w h hn, hr, Res.bind_ok]
  show (usubB _ _ _ >>= fun d => Buffer.consume chk d s.buffer >>= _) = _
  rw [← bind_assoc, h1]
  rfl

omit [HonestSource S I] in
theorem attempt_error (chk : Bool) {p : Parser σ I T E} (hp : Built everything p) (s : Source S B)
    (w w' : σ) (h : Usable s) (hn : ¬ (s.state.endOfInput = true ∧ held s = [])) {y : List I} {e : E}
    (hr : p ⟨modeOf s, held s⟩ w = .ok (.error y e, w')) :
    ∃ b, s.attempt chk p w = .ok ((.error (.parseError y e), { s with buffer := b }), w') ∧
      LawfulBuffer.Inv b ∧ LawfulBuffer.view b = y ∧
      LawfulBuffer.room b = LawfulBuffer.room s.buffer ∧
      Buffer.capacity b = Buffer.capacity s.buffer ∧
      ∀ t, LawfulBuffer.CanHold s.buffer t → LawfulBuffer.CanHold b t := by
  have hg := Built.good hp ⟨modeOf s, held s⟩ w
  rw [hr] at hg
  obtain ⟨x, hx⟩ := hg
  obtain ⟨b, h1, h2⟩ := advance chk s h x y hx.symm
  refine ⟨b, ?_, h2⟩
  rw [attempt_eq chk p s w h hn, hr, Res.bind_ok]
  show (usubB _ _ _ >>= fun d => Buffer.consume chk d s.buffer >>= _) = _
  rw [← bind_assoc, h1]
  rfl

omit [HonestSource S I] in
theorem attempt_effect (chk : Bool) {p : Parser σ I T E} (hp : Built everything p) (s : Source S B)
    (w w' : σ) (h : Usable s) {r : Except (StreamError I E) T} {s' : Source S B}
    (hr : s.attempt chk p w = .ok ((r, s'), w')) :
    Usable s' ∧ s'.source = s.source ∧ Effect p (held s) w r s' w' ∧ modeOf s' = modeOf s ∧
      s'.state.automaticFill = s.state.automaticFill ∧
      (s'.state.incomplete = true ↔ s.state.incomplete = true ∨ r = .error .retry) ∧
      (∀ t, LawfulBuffer.CanHold s.buffer t → LawfulBuffer.CanHold s'.buffer t) ∧
      LawfulBuffer.room s'.buffer = LawfulBuffer.room s.buffer ∧
      Buffer.capacity s'.buffer = Buffer.capacity s.buffer := by
  by_cases hn : s.state.endOfInput = true ∧ held s = []
  · rw [attempt_end chk p s w h hn.1 hn.2] at hr
    cases hr
    refine ⟨h, rfl, ⟨?_, hn.2, hn.2, rfl⟩, rfl, rfl, by simp, fun t ht => ht, rfl, rfl⟩
    simp [modeOf, hn.1]
  · match hf : p ⟨modeOf s, held s⟩ w with
    | .ok (.data i t, w1) =>
      obtain ⟨b, h1, h2, h3, h4, h5, h6, h7⟩ := attempt_data chk hp s w w1 h hn hf
      rw [h1] at hr
      cases hr
      refine ⟨h3, rfl, ?_, rfl, rfl, by simp, h7, h5, h6⟩
      show p ⟨modeOf s, held s⟩ w = .ok (.data ⟨modeOf s, LawfulBuffer.view b⟩ t, w')
      rw [hf, h4, ← h2]
    | .ok (.error y e, w1) =>
      obtain ⟨b, h1, h3, h4, h5, h6, h7⟩ := attempt_error chk hp s w w1 h hn hf
      rw [h1] at hr
      cases hr
      exact ⟨h3, rfl, ⟨hf, h4⟩, rfl, rfl, by simp, h7, h5, h6⟩
    | .ok (.incomplete n, w1) =>
      rw [attempt_eq chk p s w h hn, hf, Res.bind_ok] at hr
      unfold finish at hr
      dsimp only at hr
      cases hu : uaddB chk (held s).length n with
      | ok m =>
        rw [hu, Res.bind_ok] at hr
        cases he : s.state.endOfInput with
        | true =>
          simp only [he, if_true, Res.ok.injEq, Prod.mk.injEq] at hr
          obtain ⟨⟨rfl, rfl⟩, rfl⟩ := hr
          have hm : modeOf s = .endOfInput := by simp [modeOf, he]
          rw [hm] at hf
          exact ⟨h, rfl, ⟨hm, rfl, n, hf⟩, rfl, rfl, by simp, fun t ht => ht, rfl, rfl⟩
        | false =>
          simp only [he, Bool.false_eq_true, if_false, Res.ok.injEq, Prod.mk.injEq] at hr
          obtain ⟨⟨rfl, rfl⟩, rfl⟩ := hr
          have hm : modeOf s = .default := by simp [modeOf, he]
          rw [hm] at hf
          exact ⟨h, rfl, ⟨by simp [modeOf], rfl, n, hf⟩, by simp [modeOf, he], rfl, by simp,
            fun t ht => ht, rfl, rfl⟩
      | panic => rw [hu] at hr; cases hr
      | ub => rw [hu] at hr; cases hr
      | div => rw [hu] at hr; cases hr
    | .panic => rw [attempt_eq chk p s w h hn, hf] at hr; cases hr
    | .ub => rw [attempt_eq chk p s w h hn, hf] at hr; cases hr
    | .div => rw [attempt_eq chk p s w h hn, hf] at hr; cases hr

/-! ### Evaluation of concrete cases -/

end Source

/-- A loop with a limited number of turns. -/
def loopFuel (step : S → M σ (S ⊕ R)) : Nat → S → σ → Option (Res (R × σ))
  | 0, _, _ => none
  | n + 1, s, w =>
    match step s w with
    | .ok (.inl s', w') => loopFuel step n s' w'
    | .ok (.inr r, w') => some (.ok (r, w'))
    | .panic => some .panic
    | .ub => some .ub
    | .div => some .div

theorem loop_of_fuel {step : S → M σ (S ⊕ R)} {n : Nat} {s : S} {w : σ} {x : Res (R × σ)}
    (h : loopFuel step n s w = some x) : loop step s w = x := by
  induction n generalizing s w with
  | zero => cases h
  | succ n ih =>
    rw [loop_apply]
    unfold loopFuel at h
    match hs : step s w with
    | .ok (.inl s', w') => rw [hs] at h; exact ih h
    | .ok (.inr r, w') => rw [hs] at h; cases h; rfl
    | .panic => rw [hs] at h; cases h; rfl
    | .ub => rw [hs] at h; cases h; rfl
    | .div => rw [hs] at h; cases h; rfl

namespace Source

def fillRequestedFuel (n : Nat) (chk : Bool) (request : Nat) (s : Source S B) :
    Option (Res (Except IoError Nat × Source S B)) :=
  match Buffer.len chk s.buffer with
  | .ok l =>
    if l < request then
      match (usubB chk request l >>= fun diff => Buffer.requestSpace chk diff s.buffer) with
      | .ok b =>
        match loopFuel (fillStep chk request) n (s.source, b, 0) () with
        | some (.ok ((r, source, buffer), _)) =>
          some (.ok (r, { s with source := source, buffer := buffer }))
        | _ => none
      | _ => none
    else some (.ok (.ok 0, s))
  | _ => none

omit [HonestSource S I] [LawfulBuffer B I] in
theorem fillRequested_of_fuel {n : Nat} {chk : Bool} {request : Nat} {s : Source S B}
    {x : Res (Except IoError Nat × Source S B)}
    (h : fillRequestedFuel n chk request s = some x) : fillRequested chk request s = x := by
  unfold fillRequestedFuel at h
  unfold fillRequested
  cases hl : Buffer.len chk s.buffer with
  | ok l =>
    rw [hl] at h
    dsimp only [Res.bind_ok] at h ⊢
    by_cases hlt : l < request
    · rw [if_pos hlt] at h ⊢
      rw [← bind_assoc]
      cases hb : (usubB chk request l >>= fun diff => Buffer.requestSpace chk diff s.buffer) with
      | ok b =>
        rw [hb] at h
        dsimp only [Res.bind_ok] at h ⊢
        match hf : loopFuel (fillStep chk request) n (s.source, b, 0) () with
        | some (.ok ((r, source, buffer), u)) =>
          rw [hf] at h
          cases h
          rw [loop_of_fuel hf]
          rfl
        | none => rw [hf] at h; cases h
        | some .panic => rw [hf] at h; cases h
        | some .ub => rw [hf] at h; cases h
        | some .div => rw [hf] at h; cases h
      | panic => rw [hb] at h; cases h
      | ub => rw [hb] at h; cases h
      | div => rw [hb] at h; cases h
    · rw [if_neg hlt] at h ⊢
      cases h
      rfl
  | panic => rw [hl] at h; cases h
  | ub => rw [hl] at h; cases h
  | div => rw [hl] at h; cases h

def fillFuel (n : Nat) (chk : Bool) (s : Source S B) : Option (Res (Except IoError Nat × Source S B)) :=
  (fillRequestedFuel n chk (max 1 s.request) s).map fun x => x >>= fun (r, s') =>
    match r with
    | .error e => .ok (.error e, s')
    | .ok n => Buffer.len chk s'.buffer >>= fun l =>
      .ok (.ok n, { s' with state :=
        { s'.state with incomplete := false, endOfInput := !decide (l ≥ max 1 s.request) } })

omit [HonestSource S I] [LawfulBuffer B I] in
theorem fill_of_fuel {n : Nat} {chk : Bool} {s : Source S B}
    {x : Res (Except IoError Nat × Source S B)} (h : fillFuel n chk s = some x) : fill chk s = x := by
  unfold fillFuel at h
  unfold fill
  rw [Option.map_eq_some_iff] at h
  obtain ⟨y, h1, h2⟩ := h
  dsimp only
  rw [fillRequested_of_fuel h1]
  exact h2

def parseFuel (n : Nat) (chk : Bool) (f : Parser σ I T E) (s : Source S B) (w : σ) :
    Option (Res ((Except (StreamError I E) T × Source S B) × σ)) :=
  (if s.state.incomplete && s.state.automaticFill then fillFuel n chk s else some (.ok (.ok 0, s))).map
    fun x => x >>= fun x =>
      match x.1 with
      | .error e => .ok ((.error (.ioError e), x.2), w)
      | .ok _ => x.2.attempt chk f w

/-- `fillBuf` with fuel. -/
def fillBufFuel (n : Nat) (chk : Bool) (s : Source S B) :
    Option (Res (Except IoError (List I) × Source S B)) :=
  (fillRequestedFuel n chk (Buffer.capacity s.buffer) s).map fun x => x >>= fun (r, s) =>
    match r with
    | .error e => .ok (.error e, s)
    | .ok _ => Buffer.deref s.buffer >>= fun data => .ok (.ok data, s)

omit [HonestSource S I] [LawfulBuffer B I] in
/-- For evaluating concrete calls of `fillBuf`. -/
theorem fillBuf_of_fuel (n : Nat) {chk : Bool} {s : Source S B}
    {x : Res (Except IoError (List I) × Source S B)}
    (h : fillBufFuel n chk s = some x) : s.fillBuf chk = x := by
  unfold fillBufFuel at h
  rw [Option.map_eq_some_iff] at h
  obtain ⟨y, h1, h2⟩ := h
  unfold fillBuf
  dsimp only
  rw [fillRequested_of_fuel h1]
  exact h2

/-- `read` with fuel. -/
def readFuel (n : Nat) (chk : Bool) (k : Nat) (s : Source S B) :
    Option (Res (Except IoError (List I) × Source S B)) :=
  match s.len chk with
  | .ok l =>
    (if k > l then fillRequestedFuel n chk k s else some (.ok (.ok 0, s))).map fun x =>
      x >>= fun (r, s) =>
        match r with
        | .error e => .ok (.error e, s)
        | .ok _ => do
          let data ← Buffer.deref s.buffer
          let b ← Buffer.consume chk (min k data.length) s.buffer
          .ok (.ok (data.take (min k data.length)), { s with buffer := b })
  | _ => none

omit [HonestSource S I] [LawfulBuffer B I] in
/-- For evaluating concrete calls of `read`. -/
theorem read_of_fuel (n : Nat) {chk : Bool} {k : Nat} {s : Source S B}
    {x : Res (Except IoError (List I) × Source S B)}
    (h : readFuel n chk k s = some x) : s.read chk k = x := by
  unfold readFuel at h
  unfold read
  split at h
  · rename_i l hl
    rw [hl]
    dsimp only [Res.bind_ok]
    rw [Option.map_eq_some_iff] at h
    obtain ⟨y, h1, h2⟩ := h
    split at h1
    · rename_i hc
      rw [if_pos hc, fillRequested_of_fuel h1]
      exact h2
    · rename_i hc
      rw [if_neg hc]
      cases h1
      exact h2
  · cases h

omit [HonestSource S I] [LawfulBuffer B I] in
/-- For evaluating concrete calls of `parse`. -/
theorem parse_of_fuel (n : Nat) {chk : Bool} {f : Parser σ I T E} {s : Source S B} {w : σ}
    {x : Res ((Except (StreamError I E) T × Source S B) × σ)}
    (h : parseFuel n chk f s w = some x) : s.parse chk f w = x := by
  unfold parseFuel at h
  rw [parse_eq]
  rw [Option.map_eq_some_iff] at h
  obtain ⟨y, h1, h2⟩ := h
  split at h1
  · rename_i hc
    rw [if_pos hc, fill_of_fuel h1]
    exact h2
  · rename_i hc
    rw [if_neg hc]
    cases h1
    exact h2

end Source

end Chomp
