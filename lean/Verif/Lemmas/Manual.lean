import Verif.Lemmas.Retry
import Verif.Spec.Manual

namespace Chomp

open Spec

variable {S B I : Type} [DataSource S I] [Buffer B I]

namespace Manual

/-- The same with the flags set. -/
def flagged (i a : Bool) : Res (Except IoError Nat × Source S B) → Res (Except IoError Nat × Source S B)
  | .ok (r, s) => .ok (r, withFlags i a s)
  | .panic => .panic
  | .ub => .ub
  | .div => .div

/-- The same with the flags set, but for INCOMPLETE if all went well. -/
def filled (i a : Bool) : Res (Except IoError Nat × Source S B) → Res (Except IoError Nat × Source S B)
  | .ok (.error e, s) => .ok (.error e, withFlags i a s)
  | .ok (.ok n, s) => .ok (.ok n, s.setAutofill a)
  | .panic => .panic
  | .ub => .ub
  | .div => .div

theorem fillRequested_flag (chk : Bool) (n : Nat) (i a : Bool) (s : Source S B) :
    (withFlags i a s).fillRequested chk n = flagged i a (s.fillRequested chk n) := by
  unfold Source.fillRequested withFlags
  dsimp only
  cases hl : Buffer.len chk s.buffer with
  | ok l =>
    rw [Res.bind_ok, Res.bind_ok]
    split
    · cases h1 : usubB chk n l with
      | ok d =>
        rw [Res.bind_ok, Res.bind_ok]
        cases h2 : Buffer.requestSpace chk d s.buffer with
        | ok b =>
          rw [Res.bind_ok, Res.bind_ok]
          cases h3 : loop (Source.fillStep chk n) (s.source, b, 0) () with
          | ok x => rfl
          | _ => rfl
        | _ => rfl
      | _ => rfl
    · rfl
  | _ => rfl

theorem fill_flag (chk : Bool) (i a : Bool) (s : Source S B) :
    (withFlags i a s).fill chk = filled i a (s.fill chk) := by
  unfold Source.fill
  dsimp only
  rw [show (withFlags i a s).request = s.request from rfl, fillRequested_flag]
  cases h : s.fillRequested chk (max 1 s.request) with
  | ok x =>
    obtain ⟨r, s1⟩ := x
    cases r with
    | error e => rfl
    | ok n =>
      dsimp only [flagged, Res.bind_ok]
      rw [show (withFlags i a s1).buffer = s1.buffer from rfl]
      cases Buffer.len chk s1.buffer <;> rfl
  | _ => rfl

theorem fill_incomplete {chk : Bool} {s s' : Source S B} {n : Nat}
    (h : s.fill chk = .ok (.ok n, s')) : s'.state.incomplete = false := by
  unfold Source.fill at h
  dsimp only at h
  match hf : s.fillRequested chk (max 1 s.request) with
  | .ok (.error e, s1) => rw [hf] at h; cases h
  | .ok (.ok n, s1) =>
    rw [hf] at h
    dsimp only [Res.bind_ok] at h
    cases hl : Buffer.len chk s1.buffer with
    | ok l => rw [hl] at h; cases h; rfl
    | _ => rw [hl] at h; cases h
  | .panic => rw [hf] at h; cases h
  | .ub => rw [hf] at h; cases h
  | .div => rw [hf] at h; cases h

theorem fill_automatic {chk : Bool} {s s' : Source S B} {r : Except IoError Nat}
    (h : s.fill chk = .ok (r, s')) : s'.state.automaticFill = s.state.automaticFill := by
  have hs : s = withFlags s.state.incomplete s.state.automaticFill s := rfl
  rw [hs, fill_flag] at h
  match hf : s.fill chk with
  | .ok (.error e, s1) => rw [hf] at h; cases h; rfl
  | .ok (.ok n, s1) => rw [hf] at h; cases h; rfl
  | .panic => rw [hf] at h; cases h
  | .ub => rw [hf] at h; cases h
  | .div => rw [hf] at h; cases h

omit [DataSource S I] [Buffer B I] in
theorem flag_lift {α : Type} (v : Bool) (x : Res α)
    {k k' : α → M σ (Except (StreamError I E) T × Source S B)} {w : σ}
    (h : ∀ a, k a w = thenAutofill v (k' a w)) :
    (M.lift x >>= k) w = thenAutofill v ((M.lift x >>= k') w) := by
  rw [M.lift_bind, M.lift_bind]
  cases x with
  | ok a => exact h a
  | _ => rfl

omit [DataSource S I] in
theorem attempt_flag (chk : Bool) (p : Parser σ I T E) (v : Bool) (s : Source S B) (w : σ) :
    Source.attempt chk p (Source.setAutofill v s) w = thenAutofill v (s.attempt chk p w) := by
  unfold Source.attempt
  refine flag_lift v _ fun e => ?_
  split
  · rfl
  refine flag_lift v _ fun b => ?_
  rw [M.bind_apply, M.bind_apply]
  show (p ⟨modeOf s, b⟩ w >>= _) = _
  match p ⟨modeOf s, b⟩ w with
  | .panic => rfl
  | .ub => rfl
  | .div => rfl
  | .ok (.data i t, w1) =>
    rw [Res.bind_ok, Res.bind_ok]
    refine flag_lift v _ fun e => ?_
    refine flag_lift v _ fun e => ?_
    exact flag_lift v _ fun e => rfl
  | .ok (.error i t, w1) =>
    rw [Res.bind_ok, Res.bind_ok]
    refine flag_lift v _ fun e => ?_
    refine flag_lift v _ fun e => ?_
    exact flag_lift v _ fun e => rfl
  | .ok (.incomplete n, w1) =>
    rw [Res.bind_ok, Res.bind_ok]
    refine flag_lift v _ fun e => ?_
    refine flag_lift v _ fun e => ?_
    dsimp only
    show (if s.state.endOfInput = true then _ else _ : M σ _) w1 = _
    split <;> rfl

omit [DataSource S I] in
theorem attempt_again {chk : Bool} {p : Parser σ I T E} {s s' : Source S B} {w w' : σ}
    {r : Except (StreamError I E) T} (hr : s.attempt chk p w = .ok ((r, s'), w')) :
    (r = .error .retry → s'.state.incomplete = true) ∧ (∀ e, r ≠ .error (.ioError e)) ∧
      s'.state.automaticFill = s.state.automaticFill := by
  unfold Source.attempt at hr
  rw [M.bind_eq_ok] at hr
  obtain ⟨c, w1, _, hr⟩ := hr
  split at hr
  · cases hr; exact ⟨nofun, nofun, rfl⟩
  · rw [M.bind_eq_ok] at hr
    obtain ⟨b, w2, _, hr⟩ := hr
    rw [M.bind_eq_ok] at hr
    obtain ⟨x, w3, _, hr⟩ := hr
    cases x with
    | data i t =>
      dsimp only at hr
      rw [M.bind_eq_ok] at hr
      obtain ⟨_, w4, _, hr⟩ := hr
      rw [M.bind_eq_ok] at hr
      obtain ⟨_, w5, _, hr⟩ := hr
      rw [M.bind_eq_ok] at hr
      obtain ⟨_, w6, _, hr⟩ := hr
      cases hr; exact ⟨nofun, nofun, rfl⟩
    | error i t =>
      dsimp only at hr
      rw [M.bind_eq_ok] at hr
      obtain ⟨_, w4, _, hr⟩ := hr
      rw [M.bind_eq_ok] at hr
      obtain ⟨_, w5, _, hr⟩ := hr
      rw [M.bind_eq_ok] at hr
      obtain ⟨_, w6, _, hr⟩ := hr
      cases hr; exact ⟨nofun, nofun, rfl⟩
    | incomplete n =>
      dsimp only at hr
      rw [M.bind_eq_ok] at hr
      obtain ⟨_, w4, _, hr⟩ := hr
      rw [M.bind_eq_ok] at hr
      obtain ⟨_, w5, _, hr⟩ := hr
      split at hr
      · cases hr; exact ⟨nofun, nofun, rfl⟩
      · cases hr; exact ⟨fun _ => rfl, nofun, rfl⟩

omit [DataSource S I] in
/-- After a retry. -/
theorem again_flags {s : Source S B} {v : Bool} (h : s.state.incomplete = true)
    (ha : s.state.automaticFill = true) : s = withFlags true true (s.setAutofill v) := by
  obtain ⟨a, b, c, d, e, f⟩ := s
  cases h; cases ha; rfl

/-- One turn of `fillFirst`. -/
def turn (chk : Bool) (p : Parser σ I T E) (s : Source S B) :
    M σ (Source S B ⊕ (Except (StreamError I E) T × Source S B)) := do
  match ← M.lift (s.fill chk) with
  | (.error _, s) => pure (.inl s)
  | (.ok _, s) => again <$> s.parse chk p

theorem fillFirst_eq (chk : Bool) (p : Parser σ I T E) (s : Source S B) (w : σ) :
    fillFirst chk p s w = thenAutofill s.state.automaticFill (retry chk p (withFlags true true s) w) := by
  show loop (turn chk p) s w = _
  unfold retry
  generalize hv : s.state.automaticFill = v
  refine loop_sim (R := fun s1 w1 s2 w2 => s2 = withFlags true true s1 ∧ w1 = w2 ∧
    s1.state.automaticFill = v) (Q := fun x y => x = thenAutofill v y) rfl ?_ ⟨rfl, rfl, hv⟩
  rintro s1 w _ _ ⟨rfl, rfl, hv⟩
  have e1 : turn chk p s1 w = s1.fill chk >>= fun x => match x.1 with
      | .error _ => .ok (.inl x.2, w)
      | .ok _ => (again <$> x.2.parse chk p) w := by
    unfold turn
    rw [M.lift_bind]
    congr 1
    funext x
    match x with
    | (.error e, s) => rfl
    | (.ok n, s) => rfl
  have e2 : (again <$> Source.parse chk p (withFlags true true s1)) w =
      filled true true (s1.fill chk) >>= fun x => match x.1 with
      | .error _ => .ok (.inl x.2, w)
      | .ok _ => x.2.attempt chk p w >>= fun y => .ok (again y.1, y.2) := by
    rw [M.map_apply, Source.parse_eq, if_pos (by rfl), fill_flag]
    match filled true true (s1.fill chk) with
    | .ok (.error e, s2) => rfl
    | .ok (.ok n, s2) =>
      match h : s2.attempt chk p w with
      | .ok (a, b) => rw [Res.bind_ok, Res.bind_ok]
      | .panic => rw [Res.bind_ok, Res.bind_ok]
      | .ub => rw [Res.bind_ok, Res.bind_ok]
      | .div => rw [Res.bind_ok, Res.bind_ok]
    | .panic => rfl
    | .ub => rfl
    | .div => rfl
  rw [loop_apply, loop_apply, e1, e2]
  match hf : s1.fill chk with
  | .ok (.error e, s2) =>
    refine .inl ⟨s2, w, _, w, rfl, rfl, rfl, rfl, ?_⟩
    rw [fill_automatic hf, hv]
  | .ok (.ok n, s2) =>
    have hi := fill_incomplete hf
    have ha := (fill_automatic hf).trans hv
    have ep : s2.parse chk p w = s2.attempt chk p w := by
      rw [Source.parse_eq, if_neg (by simp [hi])]; rfl
    have ex : s2.attempt chk p w = thenAutofill v ((s2.setAutofill true).attempt chk p w) := by
      rw [← attempt_flag]
      have : (s2.setAutofill true).setAutofill v = s2 := by rw [← ha]; rfl
      rw [this]
    dsimp only [filled, Res.bind_ok]
    rw [M.map_apply, ep, ex]
    match hx : (s2.setAutofill true).attempt chk p w with
    | .panic => exact .inr rfl
    | .ub => exact .inr rfl
    | .div => exact .inr rfl
    | .ok ((r, s3), w3) =>
      rcases r with e | t
      · cases e with
        | retry =>
          obtain ⟨k1, _, k3⟩ := attempt_again hx
          exact .inl ⟨_, _, _, _, rfl, rfl, again_flags (k1 rfl) k3, rfl, rfl⟩
        | ioError e => exact absurd rfl ((attempt_again hx).2.1 e)
        | _ => exact .inr rfl
      · exact .inr rfl
  | .panic => exact .inr rfl
  | .ub => exact .inr rfl
  | .div => exact .inr rfl

/-- The same with the flags set, but for INCOMPLETE if it has just been set. -/
def reflag (i a : Bool) :
    Res ((Except (StreamError I E) T × Source S B) × σ) → Res ((Except (StreamError I E) T × Source S B) × σ)
  | .ok ((.error .retry, s), w) => .ok ((.error .retry, s.setAutofill a), w)
  | .ok ((r, s), w) => .ok ((r, withFlags i a s), w)
  | .panic => .panic
  | .ub => .ub
  | .div => .div

omit [DataSource S I] [Buffer B I] in
theorem reflag_lift {α : Type} (i a : Bool) (x : Res α)
    {k k' : α → M σ (Except (StreamError I E) T × Source S B)} {w : σ}
    (h : ∀ b, k b w = reflag i a (k' b w)) :
    (M.lift x >>= k) w = reflag i a ((M.lift x >>= k') w) := by
  rw [M.lift_bind, M.lift_bind]
  cases x with
  | ok a => exact h a
  | _ => rfl

omit [DataSource S I] in
theorem attempt_reflag (chk : Bool) (p : Parser σ I T E) (i a : Bool) (s : Source S B) (w : σ) :
    Source.attempt chk p (withFlags i a s) w = reflag i a (s.attempt chk p w) := by
  unfold Source.attempt
  refine reflag_lift i a _ fun e => ?_
  split
  · rfl
  refine reflag_lift i a _ fun b => ?_
  rw [M.bind_apply, M.bind_apply]
  show (p ⟨modeOf s, b⟩ w >>= _) = _
  match p ⟨modeOf s, b⟩ w with
  | .panic => rfl
  | .ub => rfl
  | .div => rfl
  | .ok (.data j t, w1) =>
    rw [Res.bind_ok, Res.bind_ok]
    refine reflag_lift i a _ fun e => ?_
    refine reflag_lift i a _ fun e => ?_
    exact reflag_lift i a _ fun e => rfl
  | .ok (.error j t, w1) =>
    rw [Res.bind_ok, Res.bind_ok]
    refine reflag_lift i a _ fun e => ?_
    refine reflag_lift i a _ fun e => ?_
    exact reflag_lift i a _ fun e => rfl
  | .ok (.incomplete n, w1) =>
    rw [Res.bind_ok, Res.bind_ok]
    refine reflag_lift i a _ fun e => ?_
    refine reflag_lift i a _ fun e => ?_
    dsimp only
    show (if s.state.endOfInput = true then _ else _ : M σ _) w1 = _
    split <;> rfl

theorem parseFirst_eq (chk : Bool) (p : Parser σ I T E) (s : Source S B) (w : σ)
    (ha : s.state.automaticFill = false) :
    butFlags (parseFirst chk p s w) = butFlags (retry chk p (withFlags false true s) w) := by
  have e1 : s.parse chk p w = s.attempt chk p w := by
    rw [Source.parse_eq, if_neg (by simp [ha])]; rfl
  have e2 : Source.parse chk p (withFlags false true s) w = Source.attempt chk p (withFlags false true s) w := by
    rw [Source.parse_eq, if_neg (by simp [withFlags])]; rfl
  rw [retry_eq, e2, attempt_reflag]
  unfold parseFirst
  rw [M.bind_apply, e1]
  match hx : s.attempt chk p w with
  | .panic => rfl
  | .ub => rfl
  | .div => rfl
  | .ok ((r, s1), w1) =>
    obtain ⟨k1, k2, k3⟩ := attempt_again hx
    rcases r with e | t
    · cases e with
      | retry =>
        show butFlags (fillFirst chk p s1 w1) = butFlags (retry chk p (s1.setAutofill true) w1)
        rw [fillFirst_eq, show withFlags true true s1 = s1.setAutofill true by
          unfold withFlags Source.setAutofill; rw [← k1 rfl]]
        match retry chk p (s1.setAutofill true) w1 with
        | .ok ((r, s2), w2) => rfl
        | .panic => rfl
        | .ub => rfl
        | .div => rfl
      | ioError e => exact absurd rfl (k2 e)
      | _ => rfl
    · rfl

/-- Automatic filling stays off. -/
theorem parseFirst_off (chk : Bool) (p : Parser σ I T E) {s s' : Source S B} {w w' : σ}
    {r : Except (StreamError I E) T} (ha : s.state.automaticFill = false)
    (hr : parseFirst chk p s w = .ok ((r, s'), w')) : s'.state.automaticFill = false := by
  have e1 : s.parse chk p w = s.attempt chk p w := by
    rw [Source.parse_eq, if_neg (by simp [ha])]; rfl
  unfold parseFirst at hr
  rw [M.bind_apply, e1] at hr
  match hx : s.attempt chk p w with
  | .panic => rw [hx] at hr; cases hr
  | .ub => rw [hx] at hr; cases hr
  | .div => rw [hx] at hr; cases hr
  | .ok ((r1, s1), w1) =>
    obtain ⟨k1, k2, k3⟩ := attempt_again hx
    rw [hx, Res.bind_ok] at hr
    rcases r1 with e | t
    · cases e with
      | retry =>
        change fillFirst chk p s1 w1 = _ at hr
        rw [fillFirst_eq, k3, ha] at hr
        match hy : retry chk p (withFlags true true s1) w1 with
        | .ok ((r, s2), w2) => rw [hy] at hr; cases hr; rfl
        | .panic => rw [hy] at hr; cases hr
        | .ub => rw [hy] at hr; cases hr
        | .div => rw [hy] at hr; cases hr
      | ioError e => exact absurd rfl (k2 e)
      | _ => cases hr; exact k3.trans ha
    · cases hr; exact k3.trans ha

end Manual

end Chomp
