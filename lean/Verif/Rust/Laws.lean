import Verif.Rust.Sources

/-
What `Source` needs of a buffer, for both kinds of buffers, and loops with an invariant.
-/

set_option linter.unusedSimpArgs false

namespace Chomp.Rust

open Spec

variable {σ X Y S B : Type}

/-! ### Loops with an invariant -/

/-- One turn of a loop, as `Turn`, with an invariant `I`, and with effects after the loop. -/
def TurnM (I : S → Prop) (cells : S → List (Val X Y)) (k : Except (Stop X Y) (Val X Y) × List (Val X Y) → M σ α)
    (fin : R → M σ α) (x : Except (Stop X Y) (Val X Y) × List (Val X Y)) (y : S ⊕ R) : Prop :=
  match y with
  | .inl s => I s ∧ ∃ v, x = (.ok v, cells s)
  | .inr r => ∃ e st, x = (.error e, st) ∧ k (leave e st) = fin r

theorem at_iterate_then (I : S → Prop) (body : RM σ X Y (Val X Y)) (step : S → M σ (S ⊕ R)) (cells : S → List (Val X Y))
    (k : Except (Stop X Y) (Val X Y) × List (Val X Y) → M σ α) (fin : R → M σ α)
    (h : ∀ s, I s → Both (TurnM I cells k fin) (at_ body (cells s)) (step s)) (s : S) (hI : I s) :
    at_ (iterate body) (cells s) >>= k = loop step s >>= fin := by
  funext w
  have hl : Outcomes (fun (a : (Except (Stop X Y) (Val X Y) × List (Val X Y)) × σ) (b : R × σ) =>
      k a.1 = fin b.1 ∧ a.2 = b.2) (at_ (iterate body) (cells s) w) (loop step s w) := by
    refine loop_sim (fun st w1 s w2 => I s ∧ st = cells s ∧ w1 = w2) (Outcomes _) True.intro (fun st w1 s w2 hR => ?_)
      ⟨hI, rfl, rfl⟩
    obtain ⟨hI, rfl, rfl⟩ := hR
    have hs := h s hI w1
    rw [loop_apply, loop_apply]
    have he : ∀ p, at_ body (cells s) w1 = .ok p →
        (do let r ← ExceptT.run body (cells s); Pure.pure (turned r) : M σ _) w1 = .ok (turned p.1, p.2) := by
      intro p hp
      show Res.bind (at_ body (cells s) w1) _ = _
      rw [hp]
      rfl
    change _ ∨ Outcomes _ (Res.bind (Res.bind (at_ body (cells s) w1) _) _) (Res.bind (step s w1) _)
    match hb : at_ body (cells s) w1, hg : step s w1, hs with
    | .ok (x, u), .ok (.inl s', u'), hs =>
      obtain ⟨⟨hI', v, rfl⟩, rfl⟩ := hs
      exact .inl ⟨_, _, _, _, he _ hb, rfl, hI', rfl, rfl⟩
    | .ok (x, u), .ok (.inr r, u'), hs =>
      obtain ⟨⟨e, st, rfl, hk⟩, rfl⟩ := hs
      refine .inr ?_
      cases e <;> exact ⟨hk, rfl⟩
    | .panic, .panic, _ => exact .inr True.intro
    | .ub, .ub, _ => exact .inr True.intro
    | .div, .div, _ => exact .inr True.intro
  show Res.bind (at_ (iterate body) (cells s) w) _ = Res.bind (loop step s w) _
  match at_ (iterate body) (cells s) w, loop step s w, hl with
  | .ok (a, u), .ok (b, u'), hl =>
    obtain ⟨h1, rfl⟩ := hl
    exact congrFun h1 u
  | .panic, .panic, _ => rfl
  | .ub, .ub, _ => rfl
  | .div, .div, _ => rfl

/-- One turn of a loop, as `Turn`, with an invariant `I`. -/
abbrev TurnI (I : S → Prop) (cells : S → List (Val X Y)) (k : Except (Stop X Y) (Val X Y) × List (Val X Y) → M σ α)
    (fin : R → α) : Except (Stop X Y) (Val X Y) × List (Val X Y) → S ⊕ R → Prop :=
  TurnM I cells k fun r => pure (fin r)

theorem at_iterate_inv (I : S → Prop) (body : RM σ X Y (Val X Y)) (step : S → M σ (S ⊕ R)) (cells : S → List (Val X Y))
    (k : Except (Stop X Y) (Val X Y) × List (Val X Y) → M σ α) (fin : R → α)
    (h : ∀ s, I s → Both (TurnI I cells k fin) (at_ body (cells s)) (step s)) (s : S) (hI : I s) :
    at_ (iterate body) (cells s) >>= k = (do let r ← loop step s; pure (fin r)) :=
  at_iterate_then I body step cells k _ h s hI

theorem lift_congr' {x : Res A} {f g : A → M σ B} (h : ∀ a, x = .ok a → f a = g a) :
    (M.lift x >>= f) = (M.lift x >>= g) := by
  cases x with
  | ok a => exact h a rfl
  | _ => rfl

theorem Both.lift {P : A → B → Prop} (x : Res C) {f : C → M σ A} {g : C → M σ B}
    (h : ∀ c, x = .ok c → Both P (f c) (g c)) : Both P (M.lift x >>= f) (M.lift x >>= g) := by
  intro w
  cases x with
  | ok a => exact h a rfl w
  | _ => exact True.intro

/-- A step without a state, as one with any state. -/
def liftStep (step : S → M Unit (S ⊕ R)) (s : S) : M σ (S ⊕ R) := M.lift (do let r ← step s (); .ok r.1)

theorem loop_lift (step : S → M Unit (S ⊕ R)) (s : S) :
    (M.lift (do let r ← loop step s (); .ok r.1) : M σ R) = loop (liftStep step) s := by
  funext w
  have h : Outcomes (fun (a : R × Unit) (b : R × σ) => a.1 = b.1 ∧ b.2 = w) (loop step s ()) (loop (liftStep step) s w) := by
    refine loop_sim (fun s1 _ s2 w2 => s1 = s2 ∧ w2 = w) (Outcomes _) True.intro (fun s1 w1 s2 w2 hR => ?_) ⟨rfl, rfl⟩
    obtain ⟨rfl, rfl⟩ := hR
    rw [loop_apply, loop_apply]
    have hs : liftStep (σ := σ) step s1 w2 = Res.bind (Res.bind (step s1 ()) fun r => .ok r.1) fun a => .ok (a, w2) := by
      show (M.lift _ : M σ _) w2 = _
      unfold M.lift
      cases step s1 () <;> rfl
    rw [hs]
    cases hg : step s1 () with
    | ok r =>
      obtain ⟨r, u⟩ := r
      cases r with
      | inl s' => exact .inl ⟨s', (), s', w2, rfl, rfl, rfl, rfl⟩
      | inr r => exact .inr ⟨rfl, rfl⟩
    | panic => exact .inr True.intro
    | ub => exact .inr True.intro
    | div => exact .inr True.intro
  have hm : (M.lift (do let r ← loop step s (); .ok r.1) : M σ R) w
      = Res.bind (Res.bind (loop step s ()) fun r => .ok r.1) fun a => .ok (a, w) := by
    unfold M.lift
    cases loop step s () <;> rfl
  rw [hm]
  match loop step s (), loop (liftStep step) s w, h with
  | .ok (a, u), .ok (b, w'), h =>
    obtain ⟨h1, h2⟩ := h
    cases h1
    cases h2
    rfl
  | .panic, .panic, _ => rfl
  | .ub, .ub, _ => rfl
  | .div, .div, _ => rfl

/-! ### Buffers -/

variable [Build] (W : World σ X Y)

/-- The methods of `eb b` do what the model says, for buffers `b` with `Inv b`. -/
structure IsBuffer [Buffer B X] (eb : B → Val X Y) (Inv : B → Prop) : Prop where
  deref_self : ∀ b, (Rust.deref (eb b) : RM σ X Y _) = pure (eb b)
  receiver : ∀ b env e, Rust.receiver env e (eb b) = place env e
  len : ∀ b r, callMethod W r (eb b) "len" [] = toR (do let n ← M.lift (Buffer.len Build.checked b); pure (.nat n))
  capacity : ∀ b r, callMethod W r (eb b) "capacity" [] = pure (.nat (Buffer.capacity b))
  deref : ∀ b r, callMethod W r (eb b) "deref" [] = toR (do let l ← M.lift (Buffer.deref b); pure (.slice l))
  consume : ∀ {a p F} (_ : Ref a p F) b n, at_ (callMethod W (some (a, p)) (eb b) "consume" [.nat n]) (F (eb b)) = (do
    let b ← M.lift (Buffer.consume Build.checked n b)
    pure (.ok .unit, F (eb b)))
  request_space : ∀ {a p F} (_ : Ref a p F) b n,
    at_ (callMethod W (some (a, p)) (eb b) "request_space" [.nat n]) (F (eb b)) = (do
      let b ← M.lift (Buffer.requestSpace Build.checked n b)
      pure (.ok .unit, F (eb b)))
  fill : ∀ {S : Type} [DataSource S X] {es : S → Val X Y} (_ : Reads W es) {a p c q} {F : Val X Y → Val X Y → List (Val X Y)}
    (_ : ∀ s, Ref a p (F s)) (_ : ∀ v, Ref c q (fun s => F s v)) s b, Inv b →
    at_ (callMethod W (some (a, p)) (eb b) "fill" [.loc c q]) (F (es s) (eb b)) = (do
      let r ← M.lift (Buffer.fill Build.checked s b)
      pure (.ok (ofIo r.1), F (es r.2.1) (eb r.2.2)))
  inv_request : ∀ b n b', Inv b → Buffer.requestSpace Build.checked n b = .ok b' → Inv b'
  inv_fill : ∀ {S : Type} [DataSource S X] (s : S) b r, Inv b → Buffer.fill Build.checked s b = .ok r → Inv r.2.2

omit [Build] in
theorem overlay_length (m ws : List (Option X)) : (overlay m ws).length = m.length := by
  induction m generalizing ws with
  | nil => cases ws with
    | nil => rfl
    | cons w ws => cases w <;> rfl
  | cons c m ih => cases ws with
    | nil => rfl
    | cons w ws => cases w <;> simp [overlay, ih]

omit [Build] in
theorem ptrCopy_length {mem mem' : List (Option X)} {s n : Nat} (h : ptrCopy mem s n = .ok mem') :
    mem'.length = mem.length := by
  unfold ptrCopy at h
  split at h
  · cases h
    simp
    omega
  · cases h

omit [Build] in
theorem bind_ok {x : Res α} {f : α → Res β} {b : β} (h : (x >>= f) = .ok b) : ∃ a, x = .ok a ∧ f a = .ok b := by
  cases x with
  | ok a => exact ⟨a, rfl, h⟩
  | _ => cases h

theorem Fixed_inv_request (b : FixedSizeBuffer X) (n : Nat) (b' : FixedSizeBuffer X)
    (h : b.requestSpace Build.checked n = .ok b') : b'.buffer.length = b.buffer.length := by
  unfold FixedSizeBuffer.requestSpace at h
  obtain ⟨_, -, h⟩ := bind_ok h
  obtain ⟨m, -, h⟩ := bind_ok h
  split at h
  · obtain ⟨c, -, h⟩ := bind_ok h
    obtain ⟨mem, hm, h⟩ := bind_ok h
    obtain ⟨p, -, h⟩ := bind_ok h
    cases h
    exact ptrCopy_length hm
  · cases h
    rfl

theorem Fixed_inv_fill [DataSource S X] (s : S) (b : FixedSizeBuffer X) (r : Except IoError Nat × S × FixedSizeBuffer X)
    (h : b.fill Build.checked s = .ok r) : r.2.2.buffer.length = b.buffer.length := by
  unfold FixedSizeBuffer.fill at h
  split at h
  · rename_i hp
    dsimp only at h
    split at h
    · cases h
      simp [overlay_length]
      omega
    · obtain ⟨_, -, h⟩ := bind_ok h
      obtain ⟨p, -, h⟩ := bind_ok h
      cases h
      simp [overlay_length]
      omega
  · cases h

theorem Growing_inv_request (b : GrowingBuffer X) (n : Nat) (b' : GrowingBuffer X)
    (h : b.requestSpace Build.checked n = .ok b') (hl : b.buffer.length ≤ usizeMax) (hc : b.cap ≤ usizeMax) :
    b'.buffer.length ≤ usizeMax ∧ b'.cap ≤ usizeMax := by
  have hu : isizeMax ≤ usizeMax := by decide
  unfold GrowingBuffer.requestSpace at h
  split at h
  · cases h
    exact ⟨hl, hc⟩
  · obtain ⟨l, -, h⟩ := bind_ok h
    obtain ⟨m, -, h⟩ := bind_ok h
    have tail : ∀ c : GrowingBuffer X, c.buffer.length ≤ usizeMax → c.cap ≤ usizeMax →
        growingTail Build.checked n c = .ok b' → b'.buffer.length ≤ usizeMax ∧ b'.cap ≤ usizeMax := by
      intro c hl hc h
      unfold growingTail at h
      obtain ⟨m, -, h⟩ := bind_ok h
      split at h
      · obtain ⟨_, -, h⟩ := bind_ok h
        obtain ⟨mem, hm, h⟩ := bind_ok h
        obtain ⟨p, -, h⟩ := bind_ok h
        cases h
        exact ⟨Nat.le_trans (Nat.le_of_eq (ptrCopy_length hm)) hl, hc⟩
      · cases h
        exact ⟨hl, hc⟩
    split at h
    · obtain ⟨c, hr, h⟩ := bind_ok h
      obtain ⟨d, hd, h⟩ := bind_ok h
      have hcap : c.cap ≤ usizeMax := by
        unfold GrowingBuffer.reserve at hr
        split at hr
        · cases hr
          exact hc
        · split at hr
          · cases hr
            exact Nat.le_trans (Nat.min_le_left _ _) hu
          · cases hr
      unfold GrowingBuffer.setLen at hd
      split at hd
      · cases hd
        refine tail _ ?_ ?_ h
        · simp
          omega
        · exact hcap
      · cases hd
    · exact tail b hl hc h

theorem Growing_inv_fill [DataSource S X] (s : S) (b : GrowingBuffer X) (r : Except IoError Nat × S × GrowingBuffer X)
    (h : b.fill Build.checked s = .ok r) : r.2.2.buffer.length = b.buffer.length ∧ r.2.2.cap = b.cap := by
  unfold GrowingBuffer.fill at h
  split at h
  · rename_i hp
    dsimp only at h
    split at h
    · cases h
      simp [overlay_length]
      omega
    · obtain ⟨_, -, h⟩ := bind_ok h
      obtain ⟨p, -, h⟩ := bind_ok h
      cases h
      simp [overlay_length]
      omega
  · cases h

theorem Fixed_consume_at (cap : Nat) (extra : Nat → Nat) (allocs : Nat) (b : FixedSizeBuffer X) (a : Nat) (p : List String) (v : Val X Y) :
    callMethod W (some (a, p)) (ofFixed cap extra allocs b) "consume" [v] = callFn W Text.FixedSizeBuffer_consume [.loc a p, v] := by
  rw [callMethod_eq]
  simp [ofFixed]

theorem Fixed_request_space_at (cap : Nat) (extra : Nat → Nat) (allocs : Nat) (b : FixedSizeBuffer X) (a : Nat) (p : List String) (v : Val X Y) :
    callMethod W (some (a, p)) (ofFixed cap extra allocs b) "request_space" [v] = callFn W Text.FixedSizeBuffer_request_space [.loc a p, v] := by
  rw [callMethod_eq]
  simp [ofFixed]

theorem Fixed_fill_at (cap : Nat) (extra : Nat → Nat) (allocs : Nat) (b : FixedSizeBuffer X) (a : Nat) (p : List String) (v : Val X Y) :
    callMethod W (some (a, p)) (ofFixed cap extra allocs b) "fill" [v] = callFn W Text.FixedSizeBuffer_fill [.loc a p, v] := by
  rw [callMethod_eq]
  simp [ofFixed]

theorem Growing_consume_at (b : GrowingBuffer X) (a : Nat) (p : List String) (v : Val X Y) :
    callMethod W (some (a, p)) (ofGrowing b) "consume" [v] = callFn W Text.GrowingBuffer_consume [.loc a p, v] := by
  rw [callMethod_eq]
  simp [ofGrowing]

theorem Growing_request_space_at (b : GrowingBuffer X) (a : Nat) (p : List String) (v : Val X Y) :
    callMethod W (some (a, p)) (ofGrowing b) "request_space" [v] = callFn W Text.GrowingBuffer_request_space [.loc a p, v] := by
  rw [callMethod_eq]
  simp [ofGrowing]

theorem Growing_fill_at (b : GrowingBuffer X) (a : Nat) (p : List String) (v : Val X Y) :
    callMethod W (some (a, p)) (ofGrowing b) "fill" [v] = callFn W Text.GrowingBuffer_fill [.loc a p, v] := by
  rw [callMethod_eq]
  simp [ofGrowing]

theorem isFixed (cap : Nat) (extra : Nat → Nat) (allocs : Nat) :
    IsBuffer W (ofFixed cap extra allocs) (fun b : FixedSizeBuffer X => b.buffer.length ≤ usizeMax) where
  deref_self b := rfl
  receiver b env e := rfl
  len b r := (by rw [callMethod_eq]; simp [ofFixed] : callMethod W r (ofFixed cap extra allocs b) "len" [] = callFn W Text.FixedSizeBuffer_len [(ofFixed cap extra allocs b)]).trans <| Fixed_len W cap extra allocs b
  capacity b r := (by rw [callMethod_eq]; simp [ofFixed] : callMethod W r (ofFixed cap extra allocs b) "capacity" [] = callFn W Text.FixedSizeBuffer_capacity [(ofFixed cap extra allocs b)]).trans <| Fixed_capacity W cap extra allocs b
  deref b r := (by rw [callMethod_eq]; simp [ofFixed] : callMethod W r (ofFixed cap extra allocs b) "deref" [] = callFn W Text.FixedSizeBuffer_deref [(ofFixed cap extra allocs b)]).trans <| Fixed_deref W cap extra allocs b
  consume hF b n := by rw [Fixed_consume_at]; exact Fixed_consume W cap extra allocs hF b n
  request_space hF b n := by rw [Fixed_request_space_at]; exact Fixed_request_space W cap extra allocs hF b n
  fill hS a c p q F hb hs s b hl := by rw [Fixed_fill_at]; exact Fixed_fill W cap extra allocs hb hs hS s b hl
  inv_request b n b' hl h := by rw [Fixed_inv_request b n b' h]; exact hl
  inv_fill s b r hl h := by rw [Fixed_inv_fill s b r h]; exact hl

theorem isGrowing :
    IsBuffer W ofGrowing (fun b : GrowingBuffer X => b.buffer.length ≤ usizeMax ∧ b.cap ≤ usizeMax) where
  deref_self b := rfl
  receiver b env e := rfl
  len b r := (by rw [callMethod_eq]; simp [ofGrowing] : callMethod W r (ofGrowing b) "len" [] = callFn W Text.GrowingBuffer_len [(ofGrowing b)]).trans <| Growing_len W b
  capacity b r := (by rw [callMethod_eq]; simp [ofGrowing] : callMethod W r (ofGrowing b) "capacity" [] = callFn W Text.GrowingBuffer_capacity [(ofGrowing b)]).trans <| Growing_capacity W b
  deref b r := (by rw [callMethod_eq]; simp [ofGrowing] : callMethod W r (ofGrowing b) "deref" [] = callFn W Text.GrowingBuffer_deref [(ofGrowing b)]).trans <| Growing_deref W b
  consume hF b n := by rw [Growing_consume_at]; exact Growing_consume W hF b n
  request_space hF b n := by rw [Growing_request_space_at]; exact Growing_request_space W hF b n
  fill hS a c p q F hb hs s b hl := by rw [Growing_fill_at]; exact Growing_fill W hb hs hS s b hl.1
  inv_request b n b' hl h := Growing_inv_request b n b' h hl.1 hl.2
  inv_fill s b r hl h := by rw [(Growing_inv_fill s b r h).1, (Growing_inv_fill s b r h).2]; exact hl

end Chomp.Rust
