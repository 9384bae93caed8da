import Verif.Spec.Unwind
import Verif.Lemmas.Safe

/-
For C84: the functions which keep the state when they panic do what the others do.
-/

set_option linter.unusedSectionVars false

namespace Chomp

open Spec

/-! ### The monad -/

namespace U

variable {St P α β A R : Type}

theorem bind_some {x : U St α} {f : α → U St β} {s s' : St} {a : α} (h : x s = .ok (some a, s')) :
    (x >>= f) s = f a s' := by
  show U.bind x f s = _
  unfold U.bind
  rw [h]

theorem bind_none {x : U St α} {f : α → U St β} {s s' : St} (h : x s = .ok (none, s')) :
    (x >>= f) s = .ok (none, s') := by
  show U.bind x f s = _
  unfold U.bind
  rw [h]

theorem get_bind (f : St → U St β) (s : St) : (U.get >>= f) s = f s s := rfl

theorem set_bind (t : St) (f : Unit → U St β) (s : St) : (U.set t >>= f) s = f () t := rfl

theorem pure_bind (a : α) (f : α → U St β) (s : St) : (U.pure a >>= f) s = f a s := rfl

theorem look_bind (x : Res α) (f : α → U St β) (s : St) : (U.look x >>= f) s =
    match x with
    | .ok a => f a s
    | .panic => .ok (none, s)
    | .ub => .ub
    | .div => .div := by
  cases x <;> rfl

theorem look_ok (a : α) (f : α → U St β) (s : St) : (U.look (.ok a) >>= f) s = f a s := rfl

end U

/-! ### Agreement -/

/-- `x` does what `y` does; where `x` panics, `y` does too, or it returns `e` and leaves the same state. -/
def Bridge (x : Res (Option α × St)) (e : Option α) (y : Res (α × St)) : Prop :=
  match x with
  | .ok (some a, s) => y = .ok (a, s)
  | .ok (none, s) => y = .panic ∨ ∃ a, e = some a ∧ y = .ok (a, s)
  | .panic => y = .panic
  | .ub => y = .ub
  | .div => y = .div

namespace Bridge

variable {St P α β : Type}

theorem bind {x : U St α} {k : α → U St β} {s : St} {e : Option α} {e' : Option β} {y : Res (α × St)}
    {k' : α × St → Res (β × St)} (h : Bridge (x s) e y)
    (hk : ∀ a s', y = .ok (a, s') → Bridge (k a s') e' (k' (a, s')))
    (he : ∀ a, e = some a → ∃ b, e' = some b ∧ ∀ s', k' (a, s') = .ok (b, s')) :
    Bridge ((x >>= k) s) e' (y >>= k') := by
  show Bridge (U.bind x k s) e' _
  unfold U.bind
  unfold Bridge at h
  match hx : x s with
  | .ok (some a, s') =>
    rw [hx] at h
    dsimp only at h ⊢
    have := hk a s' h
    rw [h]
    exact this
  | .ok (none, s') =>
    rw [hx] at h
    rcases h with h | ⟨a, h1, h2⟩
    · rw [h]; exact .inl rfl
    · obtain ⟨b, g1, g2⟩ := he a h1
      rw [h2]; exact .inr ⟨b, g1, g2 s'⟩
  | .panic => rw [hx] at h; rw [h]; exact rfl
  | .ub => rw [hx] at h; rw [h]; exact rfl
  | .div => rw [hx] at h; rw [h]; exact rfl

theorem look {x : Res α} {k : α → U St β} {s : St} {e : Option β} {k' : α → Res (β × St)}
    (hk : ∀ a, x = .ok a → Bridge (k a s) e (k' a)) :
    Bridge ((U.look x >>= k) s) e (x >>= k') := by
  rw [U.look_bind]
  cases x with
  | ok a => exact hk a rfl
  | panic => exact .inl rfl
  | ub => exact rfl
  | div => exact rfl

theorem zoom {part : St → P} {put : St → P → St} {x : U P α} {s : St} {e : Option α}
    {y : Res (α × P)} (h : Bridge (x (part s)) e y) :
    Bridge (U.zoom part put x s) e (y >>= fun r => .ok (r.1, put s r.2)) := by
  unfold U.zoom
  unfold Bridge at h
  match hx : x (part s) with
  | .ok (some a, s') => rw [hx] at h; rw [h]; exact rfl
  | .ok (none, s') =>
    rw [hx] at h
    rcases h with h | ⟨a, h1, h2⟩
    · rw [h]; exact .inl rfl
    · rw [h2]; exact .inr ⟨a, h1, rfl⟩
  | .panic => rw [hx] at h; rw [h]; exact rfl
  | .ub => rw [hx] at h; rw [h]; exact rfl
  | .div => rw [hx] at h; rw [h]; exact rfl

theorem weaken {x : Res (Option α × St)} {y : Res (α × St)} (h : Bridge x none y) (e : Option α) :
    Bridge x e y := by
  unfold Bridge at h ⊢
  match x, h with
  | .ok (some a, s), h => exact h
  | .ok (none, s), .inl h => exact .inl h
  | .ok (none, s), .inr ⟨a, h, _⟩ => cases h
  | .panic, h => exact h
  | .ub, h => exact h
  | .div, h => exact h

theorem forget {x : Res (Option α × St)} {y : Res (α × St)} (h : Bridge x none y) :
    Chomp.forget x = y := by
  unfold Bridge at h
  match x, h with
  | .ok (some a, s), h => exact h.symm
  | .ok (none, s), .inl h => exact h.symm
  | .ok (none, s), .inr ⟨a, h, _⟩ => cases h
  | .panic, h => exact h.symm
  | .ub, h => exact h.symm
  | .div, h => exact h.symm

end Bridge

/-! ### Data sources -/

theorem failing_read [UDataSource S I] (e : IoError) (s : S) (k : Nat) :
    @DataSource.read S I (UDataSource.failing e) s k =
      (⟨(UDataSource.read s k).1.writes, (UDataSource.read s k).1.result.getD (.error e)⟩,
        (UDataSource.read s k).2) := rfl

theorem failing_items [UDataSource S I] (e : IoError) (s : S) (k : Nat) :
    (@DataSource.read S I (UDataSource.failing e) s k).1.items = (UDataSource.read s k).1.items := by
  rw [failing_read]
  unfold ReadOut.items UReadOut.items
  match (UDataSource.read s k).1.result with
  | none => rfl
  | some (.ok n) => rfl
  | some (.error e) => rfl

theorem failing_honest [UDataSource S I] [UHonest S I] (e : IoError) :
    @HonestSource S I (UDataSource.failing e) :=
  @HonestSource.mk S I (UDataSource.failing e) (by
    intro s k n h
    have h' : (UDataSource.read s k).1.result = some (.ok n) := by
      rw [failing_read] at h
      revert h
      show (UDataSource.read s k).1.result.getD (.error e) = .ok n → _
      cases (UDataSource.read s k).1.result with
      | none => intro h; cases h
      | some r => intro h; cases h; rfl
    obtain ⟨h1, h2⟩ := UHonest.honest s k n h'
    exact ⟨h1, by rw [failing_items, h2]⟩)

theorem UReads.of_failing [UDataSource S I] {e : IoError} {s s' : S} {xs : List I}
    (h : @Reads S I (UDataSource.failing e) s xs s') : UReads s xs s' := by
  induction h with
  | done => exact .done
  | step k _ ih =>
    rw [failing_items]
    exact .step k ih

theorem calm_failing [i : DataSource S I] (e : IoError) : @UDataSource.failing S I .calm e = i := rfl

/-! ### Buffers -/

/-- Keep the state if it panics. -/
def keep (b : B) : Res B → Res (Option Unit × B)
  | .ok b' => .ok (some (), b')
  | .panic => .ok (none, b)
  | .ub => .ub
  | .div => .div

/-- What the two versions of a buffer have to do with each other. -/
class Unwinds (B : Type) (I : outParam Type) [Buffer B I] [UBuffer B I] where
  fill : ∀ {S : Type} [UDataSource S I] (e : IoError) (chk : Bool) (s : S) (b : B),
    Bridge (UBuffer.fill chk (s, b)) (some (.error e)) (@Buffer.fill B I _ S (UDataSource.failing e) chk s b)
  request : ∀ (chk : Bool) (n : Nat) (b : B),
    Bridge (UBuffer.requestSpace chk n b) none (Buffer.requestSpace chk n b >>= fun b => .ok ((), b))
  consume : ∀ (chk : Bool) (n : Nat) (b : B),
    UBuffer.consume chk n b = keep b (Buffer.consume chk n b)

instance unwindsFixed : Unwinds (FixedSizeBuffer I) I where
  fill {S} _ e chk s b := by
    show Bridge (FixedSizeBuffer.fillU chk (s, b)) _ (@FixedSizeBuffer.fill S I (UDataSource.failing e) chk s b)
    unfold FixedSizeBuffer.fillU FixedSizeBuffer.fill
    rw [U.get_bind, failing_read]
    dsimp only
    split
    · rw [U.set_bind]
      match hr : (UDataSource.read s (b.buffer.length - b.populated)).1.result with
      | none =>
        refine .inr ⟨_, rfl, ?_⟩
        simp only [Option.getD_none]
      | some (.error e') =>
        show Bridge (U.pure _ _) _ _
        simp only [Option.getD_some]
        exact rfl
      | some (.ok n) =>
        simp only [Option.getD_some]
        exact .look fun _ _ => .look fun p _ => rfl
    · exact .inl rfl
  request chk n b := by
    show Bridge (FixedSizeBuffer.requestSpaceU chk n b) _ (FixedSizeBuffer.requestSpace chk n b >>= _)
    unfold FixedSizeBuffer.requestSpaceU FixedSizeBuffer.requestSpace
    rw [U.get_bind]
    simp only [bind_assoc]
    refine .look fun _ _ => .look fun free _ => ?_
    split
    · simp only [bind_assoc]
      refine .look fun _ _ => .look fun mem _ => ?_
      rw [U.set_bind]
      exact .look fun p _ => rfl
    · exact rfl
  consume chk n b := by
    show FixedSizeBuffer.consumeU chk n b = keep b (FixedSizeBuffer.consume chk n b)
    unfold FixedSizeBuffer.consumeU FixedSizeBuffer.consume
    rw [U.get_bind, U.look_bind]
    cases debugAssert chk (b.used + n ≤ b.populated) with
    | ok _ =>
      dsimp only
      rw [U.look_bind]
      cases uaddB chk b.used n <;> rfl
    | _ => rfl

/-- The part of `request_space` which allocates. -/
def GrowingBuffer.alloc (chk : Bool) (items : Nat) (b : GrowingBuffer I) : Res (GrowingBuffer I) := do
  let l ← len chk b
  let need ← uaddB chk items l
  if need > b.cap then do
    let b ← reserve items b
    setLen b.cap b
  else .ok b

instance unwindsGrowi : Unwinds (GrowingBuffer I) I where
  fill {S} _ e chk s b := by
    show Bridge (GrowingBuffer.fillU chk (s, b)) _ (@GrowingBuffer.fill S I (UDataSource.failing e) chk s b)
    unfold GrowingBuffer.fillU GrowingBuffer.fill
    rw [U.get_bind, failing_read]
    dsimp only
    split
    · rw [U.set_bind]
      match hr : (UDataSource.read s (b.buffer.length - b.populated)).1.result with
      | none =>
        refine .inr ⟨_, rfl, ?_⟩
        simp only [Option.getD_none]
      | some (.error e') =>
        show Bridge (U.pure _ _) _ _
        simp only [Option.getD_some]
        exact rfl
      | some (.ok n) =>
        simp only [Option.getD_some]
        exact .look fun _ _ => .look fun p _ => rfl
    · exact .inl rfl
  request chk n b := by
    have move : ∀ b : GrowingBuffer I, Bridge (GrowingBuffer.moveU chk n b) none
        (GrowingBuffer.shift chk n b >>= fun b => .ok ((), b)) := by
      intro b
      unfold GrowingBuffer.moveU GrowingBuffer.shift
      rw [U.get_bind]
      simp only [bind_assoc]
      refine .look fun free _ => ?_
      split
      · simp only [bind_assoc]
        refine .look fun _ _ => .look fun mem _ => ?_
        rw [U.set_bind]
        exact .look fun p _ => rfl
      · exact rfl
    show Bridge (GrowingBuffer.requestSpaceU chk n b) _ (GrowingBuffer.requestSpace chk n b >>= _)
    have grow : Bridge (GrowingBuffer.growU chk n b) none
        (GrowingBuffer.alloc chk n b >>= fun b => .ok ((), b)) := by
      unfold GrowingBuffer.growU GrowingBuffer.alloc
      rw [U.get_bind]
      simp only [bind_assoc]
      refine .look fun l _ => .look fun need _ => ?_
      split
      · rw [bind_assoc]
        refine .look fun b _ => ?_
        rw [U.set_bind]
        exact .look fun b _ => rfl
      · exact rfl
    have e : GrowingBuffer.requestSpace chk n b =
        if b.limit ≠ 0 ∧ b.cap > b.limit then .ok b
        else GrowingBuffer.alloc chk n b >>= GrowingBuffer.shift chk n := by
      unfold GrowingBuffer.requestSpace GrowingBuffer.alloc
      simp only [bind_assoc]
      split
      · rfl
      · cases GrowingBuffer.len chk b with
        | ok l =>
          simp only [Res.bind_ok]
          cases uaddB chk n l with
          | ok need =>
            simp only [Res.bind_ok]
            split
            · rw [bind_assoc]; rfl
            · rfl
          | _ => rfl
        | _ => rfl
    rw [e]
    unfold GrowingBuffer.requestSpaceU
    rw [U.get_bind]
    split
    · exact rfl
    · have := Bridge.bind (k := fun _ => GrowingBuffer.moveU chk n) (e' := none)
        (k' := fun x => GrowingBuffer.shift chk n x.2 >>= fun b => .ok ((), b)) grow
        (fun _ b _ => move b) (fun a h => nomatch h)
      rw [bind_assoc] at this ⊢
      exact this
  consume chk n b := by
    show GrowingBuffer.consumeU chk n b = keep b (GrowingBuffer.consume chk n b)
    unfold GrowingBuffer.consumeU GrowingBuffer.consume
    rw [U.get_bind, U.look_bind]
    cases debugAssert chk (b.used + n ≤ b.populated) with
    | ok _ =>
      dsimp only
      rw [U.look_bind]
      cases uaddB chk b.used n <;> rfl
    | _ => rfl

/-! ### Sources -/

section
variable {S B I : Type} [UDataSource S I] [Buffer B I] [UBuffer B I] [Unwinds B I]

theorem keep_bridge (b : B) (x : Res B) : Bridge (keep b x) none (x >>= fun b => .ok ((), b)) := by
  cases x with
  | panic => exact .inl rfl
  | _ => exact rfl

theorem consume_bridge (chk : Bool) (n : Nat) (b : B) :
    Bridge (UBuffer.consume chk n b) none (Buffer.consume chk n b >>= fun b => .ok ((), b)) := by
  rw [Unwinds.consume]
  exact keep_bridge b _

namespace Source

theorem fillStep_loop (e : IoError) (chk : Bool) (req : Nat) (s0 : Source S B) (k : Nat) (x : S) (b : B) :
    Bridge (U.loop (fillStepU chk req) k { s0 with source := x, buffer := b }) (some (.error e))
      (loop (@fillStep S B I (UDataSource.failing e) _ chk req) (x, b, k) () >>= fun z =>
        .ok (z.1.1, { s0 with source := z.1.2.1, buffer := z.1.2.2 })) := by
  unfold U.loop
  refine loop_sim
    (fun k s (y : S × B × Nat) (_ : Unit) =>
      s = { s0 with source := y.1, buffer := y.2.1 } ∧ k = y.2.2)
    (fun (x : Res (Option (Except IoError Nat) × Source S B))
        (y : Res ((Except IoError Nat × S × B) × Unit)) =>
      Bridge x (some (.error e)) (y >>= fun z =>
        .ok (z.1.1, { s0 with source := z.1.2.1, buffer := z.1.2.2 }))) rfl ?_ (w2 := ()) ⟨rfl, rfl⟩
  rintro k' s ⟨x, b, _⟩ u ⟨rfl, rfl⟩
  dsimp only
  have hf := Unwinds.fill e chk x b
  -- the two bodies
  have step1 : fillStepU chk req k' { s0 with source := x, buffer := b } =
      match Buffer.len chk b with
      | .ok l => if l < req then
          match UBuffer.fill chk (x, b) with
          | .ok (some (.error e'), x', b') =>
            .ok (some (.inr (.error e')), { s0 with source := x', buffer := b' })
          | .ok (some (.ok 0), x', b') =>
            .ok (some (.inr (.ok k')), { s0 with source := x', buffer := b' })
          | .ok (some (.ok n), x', b') =>
            match uaddB chk k' n with
            | .ok m => .ok (some (.inl m), { s0 with source := x', buffer := b' })
            | .panic => .ok (none, { s0 with source := x', buffer := b' })
            | .ub => .ub
            | .div => .div
          | .ok (none, x', b') => .ok (none, { s0 with source := x', buffer := b' })
          | .panic => .panic
          | .ub => .ub
          | .div => .div
        else .ok (some (.inr (.ok k')), { s0 with source := x, buffer := b })
      | .panic => .ok (none, { s0 with source := x, buffer := b })
      | .ub => .ub
      | .div => .div := by
    unfold fillStepU
    rw [U.get_bind, U.look_bind]
    dsimp only
    cases Buffer.len chk b with
    | ok l =>
      dsimp only
      split
      · show U.bind (U.zoom _ _ _) _ _ = _
        unfold U.bind U.zoom
        dsimp only
        match UBuffer.fill chk (x, b) with
        | .ok (some (.error e'), x', b') => rfl
        | .ok (some (.ok 0), x', b') => rfl
        | .ok (some (.ok (n + 1)), x', b') =>
          show (U.look (uaddB chk k' (n + 1)) >>= _) _ = _
          rw [U.look_bind]
          cases hu : uaddB chk k' (n + 1) <;> simp only [hu] <;> rfl
        | .ok (none, x', b') => rfl
        | .panic => rfl
        | .ub => rfl
        | .div => rfl
      · rfl
    | _ => rfl
  have step2 : @fillStep S B I (UDataSource.failing e) _ chk req (x, b, k') () =
      match Buffer.len chk b with
      | .ok l => if l < req then
          match @Buffer.fill B I _ S (UDataSource.failing e) chk x b with
          | .ok (.error e', x', b') => .ok (.inr (.error e', x', b'), ())
          | .ok (.ok 0, x', b') => .ok (.inr (.ok k', x', b'), ())
          | .ok (.ok n, x', b') =>
            match uaddB chk k' n with
            | .ok m => .ok (.inl (x', b', m), ())
            | .panic => .panic
            | .ub => .ub
            | .div => .div
          | .panic => .panic
          | .ub => .ub
          | .div => .div
        else .ok (.inr (.ok k', x, b), ())
      | .panic => .panic
      | .ub => .ub
      | .div => .div := by
    unfold fillStep
    dsimp only
    rw [M.lift_bind]
    cases Buffer.len chk b with
    | ok l =>
      rw [Res.bind_ok]
      dsimp only
      split
      · rw [M.lift_bind]
        match @Buffer.fill B I _ S (UDataSource.failing e) chk x b with
        | .ok (.error e', x', b') => rfl
        | .ok (.ok 0, x', b') => rfl
        | .ok (.ok (n + 1), x', b') =>
          cases hu : uaddB chk k' (n + 1) <;> simp only [hu, Res.bind_ok] <;> rfl
        | .panic => rfl
        | .ub => rfl
        | .div => rfl
      · rfl
    | _ => rfl
  rw [loop_apply, loop_apply (@fillStep S B I (UDataSource.failing e) _ chk req)]
  rw [step1, step2]
  cases Buffer.len chk b with
  | panic => exact .inr (.inl rfl)
  | ub => exact .inr rfl
  | div => exact .inr rfl
  | ok l =>
    dsimp only
    by_cases hl : l < req
    · rw [if_pos hl, if_pos hl]
      unfold Bridge at hf
      match hx : UBuffer.fill chk (x, b) with
      | .ok (some (.error e'), x', b') =>
        rw [hx] at hf; rw [hf]; exact .inr rfl
      | .ok (some (.ok 0), x', b') => rw [hx] at hf; rw [hf]; exact .inr rfl
      | .ok (some (.ok (n + 1)), x', b') =>
        rw [hx] at hf; rw [hf]
        cases hu : uaddB chk k' (n + 1) with
        | ok m => exact .inl ⟨m, _, (x', b', m), (), by simp only [hu], by simp only [hu], rfl, rfl⟩
        | panic => exact .inr (by simp only [hu]; exact .inl rfl)
        | ub => exact .inr (by simp only [hu]; exact rfl)
        | div => exact .inr (by simp only [hu]; exact rfl)
      | .ok (none, x', b') =>
        rw [hx] at hf
        rcases hf with hf | ⟨a, ha, hf⟩
        · rw [hf]; exact .inr (.inl rfl)
        · cases ha
          rw [hf]; exact .inr (.inr ⟨_, rfl, rfl⟩)
      | .panic => rw [hx] at hf; rw [hf]; exact .inr rfl
      | .ub => rw [hx] at hf; rw [hf]; exact .inr rfl
      | .div => rw [hx] at hf; rw [hf]; exact .inr rfl
    · rw [if_neg hl, if_neg hl]
      exact .inr rfl

theorem fillRequested_bridge (e : IoError) (chk : Bool) (req : Nat) (s : Source S B) :
    Bridge (fillRequestedU chk req s) (some (.error e))
      (@fillRequested S B I (UDataSource.failing e) _ chk req s) := by
  unfold fillRequestedU fillRequested
  rw [U.get_bind]
  refine .look fun l _ => ?_
  split
  · refine .look fun d _ => ?_
    have h := (Unwinds.request chk d s.buffer).zoom (s := s) (part := fun s => s.buffer)
      (put := fun s b => { s with buffer := b })
    have := Bridge.bind (x := onBuffer (UBuffer.requestSpace chk d))
      (k := fun _ => U.loop (fillStepU chk req) 0) (e' := some (.error e))
      (k' := fun y => loop (@fillStep S B I (UDataSource.failing e) _ chk req)
          (y.2.source, y.2.buffer, 0) () >>= fun z =>
        .ok (z.1.1, { y.2 with source := z.1.2.1, buffer := z.1.2.2 })) h
      (fun _ s' _ => fillStep_loop e chk req s' 0 s'.source s'.buffer) (fun a h => nomatch h)
    simp only [bind_assoc, Res.bind_ok] at this
    exact this
  · exact rfl

theorem fill_bridge (e : IoError) (chk : Bool) (s : Source S B) :
    Bridge (fillU chk s) (some (.error e)) (@fill S B I (UDataSource.failing e) _ chk s) := by
  unfold fillU fill
  rw [U.get_bind]
  refine .bind (fillRequested_bridge e chk (max 1 s.request) s) ?_ ?_
  · intro r s' _
    cases r with
    | error e' => exact rfl
    | ok n =>
      dsimp only
      rw [U.get_bind, U.set_bind]
      exact .look fun l _ => rfl
  · intro a ha
    cases ha
    exact ⟨_, rfl, fun s' => rfl⟩

theorem read_bridge (e : IoError) (chk : Bool) (k : Nat) (s : Source S B) :
    Bridge (readU chk k s) (some (.error e)) (@read S B I (UDataSource.failing e) _ chk k s) := by
  unfold readU read
  rw [U.get_bind]
  refine .look fun l _ => ?_
  have fuse : ∀ {α β : Type} (c : Prop) [Decidable c] (x y : Res α) (f : α → Res β),
      (if c then x >>= f else y >>= f) = (if c then x else y) >>= f := by
    intro α β c _ x y f
    split <;> rfl
  dsimp only
  rw [fuse]
  refine .bind (e := some (Except.error e)) ?_ ?_ ?_
  · split
    · exact fillRequested_bridge e chk k s
    · exact rfl
  · intro r s' _
    cases r with
    | error e' => exact rfl
    | ok n =>
      dsimp only
      rw [U.get_bind]
      refine .look fun d _ => ?_
      have h := (consume_bridge chk (min k d.length) s'.buffer).zoom (s := s') (part := fun s => s.buffer)
        (put := fun s b => { s with buffer := b })
      have := Bridge.bind (x := onBuffer (UBuffer.consume chk (min k d.length)))
        (k := fun _ => U.pure (Except.ok (d.take (min k d.length)))) (e' := some (Except.error e))
        (k' := fun y => .ok (Except.ok (d.take (min k d.length)), y.2)) h (fun _ s' _ => rfl)
        (fun a h => nomatch h)
      simp only [bind_assoc, Res.bind_ok] at this
      exact this
  · intro a ha
    cases ha
    exact ⟨_, rfl, fun s' => rfl⟩

theorem fillBuf_bridge (e : IoError) (chk : Bool) (s : Source S B) :
    Bridge (fillBufU chk s) (some (.error e)) (@fillBuf S B I (UDataSource.failing e) _ chk s) := by
  unfold fillBufU fillBuf
  rw [U.get_bind]
  refine .bind (fillRequested_bridge e chk _ s) ?_ ?_
  · intro r s' _
    cases r with
    | error e' => exact rfl
    | ok n =>
      dsimp only
      rw [U.get_bind]
      exact .look fun d _ => rfl
  · intro a ha
    cases ha
    exact ⟨_, rfl, fun s' => rfl⟩

theorem consume_eq (chk : Bool) (n : Nat) (s : Source S B) :
    consumeU chk n s = keep s (s.consume chk n) := by
  unfold consumeU onBuffer U.zoom consume
  dsimp only
  rw [Unwinds.consume]
  cases Buffer.consume chk n s.buffer <;> rfl

/-- The end of `parse`, src/buffer/stateful.rs:222-244. -/
def settle (chk : Bool) (s : Source S B) (r : ParseResult I T E) :
    Res (Except (StreamError I E) T × Source S B) :=
  match r with
  | .data remainder data => do
    let l ← Buffer.len chk s.buffer
    let d ← usubB chk l remainder.buf.length
    let b ← Buffer.consume chk d s.buffer
    .ok (.ok data, { s with buffer := b })
  | .error remainder err => do
    let l ← Buffer.len chk s.buffer
    let d ← usubB chk l remainder.length
    let b ← Buffer.consume chk d s.buffer
    .ok (.error (.parseError remainder err), { s with buffer := b })
  | .incomplete n => do
    let l ← Buffer.len chk s.buffer
    let request ← uaddB chk l n
    let s := { s with request := request }
    if s.state.endOfInput then
      .ok (.error (.incomplete request), s)
    else
      .ok (.error .retry, { s with state := { s.state with incomplete := true } })

theorem attempt_settle (chk : Bool) (f : Parser σ I T E) (s : Source S B) (w : σ) :
    s.attempt chk f w =
      s.isEmpty chk >>= fun c =>
        if c then .ok ((.error .endOfInput, s), w)
        else Buffer.deref s.buffer >>= fun b =>
          f ⟨modeOf s, b⟩ w >>= fun x =>
            settle chk s x.1 >>= fun y => .ok (y, x.2) := by
  unfold attempt
  rw [M.lift_bind]
  show s.isEmpty chk >>= _ = _
  congr 1
  funext c
  cases c with
  | true => rfl
  | false =>
    rw [if_neg (by decide), if_neg (by decide), M.lift_bind]
    congr 1
    funext b
    rw [M.bind_apply]
    show f _ w >>= _ = f ⟨modeOf s, b⟩ w >>= _
    congr 1
    funext x
    obtain ⟨r, w'⟩ := x
    cases r with
    | data i t =>
      simp only [settle, bind_assoc, M.lift_bind]
      rfl
    | error i t =>
      simp only [settle, bind_assoc, M.lift_bind]
      rfl
    | incomplete n =>
      simp only [settle, bind_assoc, M.lift_bind]
      congr 1; funext l; congr 1; funext req
      cases s.state.endOfInput <;> rfl

theorem settle_eq (chk : Bool) (s : Source S B) (r : ParseResult I T E) :
    settleU chk r s =
      match settle chk s r with
      | .ok (a, s') => .ok (some a, s')
      | .panic => .ok (none, s)
      | .ub => .ub
      | .div => .div := by
  have eat : ∀ (n : Nat) (a : Except (StreamError I E) T),
      (do
        let s ← U.get
        let l ← U.look (Buffer.len chk s.buffer)
        let d ← U.look (usubB chk l n)
        onBuffer (UBuffer.consume chk d)
        U.pure a : U (Source S B) _) s =
      match (do
        let l ← Buffer.len chk s.buffer
        let d ← usubB chk l n
        let b ← Buffer.consume chk d s.buffer
        .ok (a, { s with buffer := b }) : Res (Except (StreamError I E) T × Source S B)) with
      | .ok (a, s') => .ok (some a, s')
      | .panic => .ok (none, s)
      | .ub => .ub
      | .div => .div := by
    intro n a
    rw [U.get_bind, U.look_bind]
    cases Buffer.len chk s.buffer with
    | ok l =>
      dsimp only
      rw [U.look_bind, Res.bind_ok]
      cases usubB chk l n with
      | ok d =>
        dsimp only
        rw [Res.bind_ok]
        show U.bind (U.zoom _ _ _) _ _ = _
        unfold U.bind U.zoom
        dsimp only
        rw [Unwinds.consume]
        cases Buffer.consume chk d s.buffer <;> rfl
      | _ => rfl
    | _ => rfl
  cases r with
  | data i t => exact eat _ _
  | error i t => exact eat _ _
  | incomplete n =>
    unfold settleU settle
    dsimp only
    rw [U.get_bind, U.look_bind]
    cases Buffer.len chk s.buffer with
    | ok l =>
      dsimp only
      rw [U.look_bind, Res.bind_ok]
      cases uaddB chk l n with
      | ok d =>
        dsimp only
        rw [U.set_bind, Res.bind_ok]
        cases s.state.endOfInput <;> rfl
      | _ => rfl
    | _ => rfl

/-- After filling, the source is left as it is if something panics. -/
theorem attempt_eq_U (chk : Bool) (f : UParser σ I T E) (s : Source S B) (w : σ) :
    attemptU chk f (s, w) =
      match s.isEmpty chk with
      | .ok true => .ok (some (.error .endOfInput), s, w)
      | .ok false =>
        match Buffer.deref s.buffer with
        | .ok b =>
          match f ⟨modeOf s, b⟩ w with
          | .ok (some r, w') =>
            match settle chk s r with
            | .ok (a, s') => .ok (some a, s', w')
            | .panic => .ok (none, s, w')
            | .ub => .ub
            | .div => .div
          | .ok (none, w') => .ok (none, s, w')
          | .panic => .panic
          | .ub => .ub
          | .div => .div
        | .panic => .ok (none, s, w)
        | .ub => .ub
        | .div => .div
      | .panic => .ok (none, s, w)
      | .ub => .ub
      | .div => .div := by
  unfold attemptU
  rw [U.get_bind]
  dsimp only
  rw [U.look_bind]
  cases s.isEmpty chk with
  | ok c =>
    cases c with
    | true => rfl
    | false =>
      dsimp only
      rw [if_neg (by decide), U.look_bind]
      cases Buffer.deref s.buffer with
      | ok b =>
        dsimp only
        show U.bind (U.zoom _ _ _) _ _ = _
        unfold U.bind U.zoom
        dsimp only
        rw [show (if s.state.endOfInput = true then Mode.endOfInput else Mode.default) = modeOf s from rfl]
        match f ⟨modeOf s, b⟩ w with
        | .ok (some r, w') =>
          dsimp only
          rw [settle_eq]
          match settle chk s r with
          | .ok (a, s') => rfl
          | .panic => rfl
          | .ub => rfl
          | .div => rfl
        | .ok (none, w') => rfl
        | .panic => rfl
        | .ub => rfl
        | .div => rfl
      | _ => rfl
  | _ => rfl

theorem attempt_bridge (chk : Bool) (f : UParser σ I T E) (s : Source S B) (w : σ) :
    Bridge (attemptU chk f (s, w)) none
      (regroup (s.attempt chk f.forget w)) := by
  rw [attempt_eq_U, attempt_settle]
  cases s.isEmpty chk with
  | ok c =>
    cases c with
    | true => exact rfl
    | false =>
      dsimp only
      rw [Res.bind_ok, if_neg Bool.false_ne_true]
      cases Buffer.deref s.buffer with
      | ok b =>
        dsimp only
        rw [Res.bind_ok]
        unfold UParser.forget
        match f ⟨modeOf s, b⟩ w with
        | .ok (some r, w') =>
          show Bridge _ _ (regroup (settle chk s r >>= fun y => .ok (y, w')))
          dsimp only
          match settle chk s r with
          | .ok (a, s') => exact rfl
          | .panic => exact .inl rfl
          | .ub => exact rfl
          | .div => exact rfl
        | .ok (none, w') => exact .inl rfl
        | .panic => exact rfl
        | .ub => exact rfl
        | .div => exact rfl
      | panic => exact .inl rfl
      | ub => exact rfl
      | div => exact rfl
  | panic => exact .inl rfl
  | ub => exact rfl
  | div => exact rfl

/-- The automatic `fill`. -/
def autoU (chk : Bool) (s : Source S B) : Res (Option (Except IoError Nat) × Source S B) :=
  if s.state.incomplete && s.state.automaticFill then fillU chk s else .ok (some (.ok 0), s)

theorem parse_eq_U (chk : Bool) (f : UParser σ I T E) (s : Source S B) (w : σ) :
    parseU chk f (s, w) =
      match autoU chk s with
      | .ok (some (.ok _), s') => attemptU chk f (s', w)
      | .ok (some (.error e), s') => .ok (some (.error (.ioError e)), s', w)
      | .ok (none, s') => .ok (none, s', w)
      | .panic => .panic
      | .ub => .ub
      | .div => .div := by
  unfold parseU autoU
  rw [U.get_bind]
  dsimp only
  split
  · show U.bind (U.zoom _ _ _) _ _ = _
    unfold U.bind U.zoom
    dsimp only
    match fillU chk s with
    | .ok (some (.ok _), s') => rfl
    | .ok (some (.error e), s') => rfl
    | .ok (none, s') => rfl
    | .panic => rfl
    | .ub => rfl
    | .div => rfl
  · rfl

theorem parse_bridge (e : IoError) (chk : Bool) (f : UParser σ I T E) (s : Source S B) (w : σ) :
    Bridge (parseU chk f (s, w)) (some (.error (.ioError e)))
      (regroup (@parse S B I (UDataSource.failing e) _ σ T E chk f.forget s w)) := by
  rw [parse_eq_U, @parse_eq S B I (UDataSource.failing e)]
  have ha : Bridge (autoU chk s) (some (.error e))
      (if s.state.incomplete && s.state.automaticFill then @fill S B I (UDataSource.failing e) _ chk s
        else .ok (.ok 0, s)) := by
    unfold autoU
    split
    · exact fill_bridge e chk s
    · exact rfl
  unfold Bridge at ha
  match hx : autoU chk s with
  | .ok (some (.ok n), s') =>
    rw [hx] at ha
    dsimp only at ha ⊢
    rw [ha, Res.bind_ok]
    exact (attempt_bridge chk f s' w).weaken _
  | .ok (some (.error e'), s') =>
    rw [hx] at ha
    dsimp only at ha ⊢
    rw [ha]
    exact rfl
  | .ok (none, s') =>
    rw [hx] at ha
    rcases ha with ha | ⟨a, h1, ha⟩
    · rw [ha]; exact .inl rfl
    · cases h1
      rw [ha]; exact .inr ⟨_, rfl, rfl⟩
  | .panic => rw [hx] at ha; dsimp only at ha; rw [ha]; exact rfl
  | .ub => rw [hx] at ha; dsimp only at ha; rw [ha]; exact rfl
  | .div => rw [hx] at ha; dsimp only at ha; rw [ha]; exact rfl

end Source

end

/-! ### What is left by a panic -/

/-- It returns or panics, and leaves a state with the property. -/
def Leaves (x : Res (Option α × St)) (P : Option α → St → Prop) : Prop := ∃ r s, x = .ok (r, s) ∧ P r s

namespace Leaves

variable {St Pt α β : Type}

theorem ok {P : Option α → St → Prop} {r : Option α} {s : St} (h : P r s) : Leaves (.ok (r, s)) P :=
  ⟨r, s, rfl, h⟩

theorem bind {x : U St α} {k : α → U St β} {s : St} {P : Option α → St → Prop}
    {Q : Option β → St → Prop} (h : Leaves (x s) P)
    (hk : ∀ a s', x s = .ok (some a, s') → P (some a) s' → Leaves (k a s') Q)
    (hn : ∀ s', P none s' → Q none s') : Leaves ((x >>= k) s) Q := by
  obtain ⟨r, s', e, hp⟩ := h
  cases r with
  | none => rw [U.bind_none e]; exact .ok (hn s' hp)
  | some a => rw [U.bind_some e]; exact hk a s' e hp

theorem look {x : Res α} {k : α → U St β} {s : St} {P : α → Prop} {Q : Option β → St → Prop}
    (h : Tame x P) (hk : ∀ a, x = .ok a → P a → Leaves (k a s) Q) (hn : Q none s) :
    Leaves ((U.look x >>= k) s) Q := by
  rw [U.look_bind]
  rcases h with rfl | ⟨a, rfl, ha⟩
  · exact .ok hn
  · exact hk a rfl ha

theorem zoom {part : St → Pt} {put : St → Pt → St} {x : U Pt α} {s : St} {P : Option α → Pt → Prop}
    (h : Leaves (x (part s)) P) :
    Leaves (U.zoom part put x s) (fun r s' => ∃ t, s' = put s t ∧ P r t) := by
  obtain ⟨r, t, e, hp⟩ := h
  unfold U.zoom
  rw [e]
  exact .ok ⟨t, rfl, hp⟩

theorem mono {x : Res (Option α × St)} {P Q : Option α → St → Prop} (h : Leaves x P)
    (hq : ∀ r s, P r s → Q r s) : Leaves x Q := by
  obtain ⟨r, s, e, hp⟩ := h
  exact ⟨r, s, e, hq r s hp⟩

end Leaves

/-- A buffer which stays as it is if `request_space` panics. -/
class UnwindsSafe (B : Type) (I : outParam Type) [Buffer B I] [UBuffer B I] [LawfulBuffer B I]
    [SafeBuffer B I] extends Unwinds B I where
  safe : ∀ {b : B}, LawfulBuffer.Inv b → SafeBuffer.Safe b
  stays : ∀ {b : B} (chk : Bool) (n : Nat), SafeBuffer.Safe b →
    UBuffer.requestSpace chk n b = keep b (Buffer.requestSpace chk n b)

instance unwindsSafeFixed : UnwindsSafe (FixedSizeBuffer I) I where
  safe h := Props.FixedSafe.of_inv h
  stays {b} chk n _ := by
    show FixedSizeBuffer.requestSpaceU chk n b = keep b (FixedSizeBuffer.requestSpace chk n b)
    unfold FixedSizeBuffer.requestSpaceU FixedSizeBuffer.requestSpace
    rw [U.get_bind, U.look_bind]
    cases assert (b.populated ≥ b.used) with
    | ok _ =>
      dsimp only
      rw [U.look_bind, Res.bind_ok]
      cases usubB chk b.buffer.length b.populated with
      | ok free =>
        dsimp only
        rw [Res.bind_ok]
        split
        · rw [U.look_bind]
          cases h : usubB chk b.populated b.used with
          | ok count =>
            dsimp only
            rw [U.look_bind, Res.bind_ok]
            cases ptrCopy b.buffer b.used count with
            | ok mem => rfl
            | _ => rfl
          | _ => rfl
        · rfl
      | _ => rfl
    | _ => rfl

instance unwindsSafeGrowi : UnwindsSafe (GrowingBuffer I) I where
  safe h := GrowingSafe.of_inv h
  stays {b} chk n h := by
    show GrowingBuffer.requestSpaceU chk n b = keep b (GrowingBuffer.requestSpace chk n b)
    have hpop : b.populated ≤ b.buffer.length := h.inv0.1.populated_le
    have move : ∀ (c : GrowingBuffer I) (l : Nat), c.populated ≤ c.buffer.length →
        usubB chk c.populated c.used = .ok l →
        GrowingBuffer.moveU chk n c = keep b (GrowingBuffer.shift chk n c) := by
      intro c l h1 h2
      unfold GrowingBuffer.moveU GrowingBuffer.shift
      rw [U.get_bind, usubB_ok h1, U.look_ok, Res.bind_ok, h2]
      split
      · rw [U.look_ok, Res.bind_ok, U.look_bind]
        unfold ptrCopy
        by_cases h3 : c.used + l ≤ c.buffer.length
        · rw [if_pos h3]; rfl
        · rw [if_neg h3]; rfl
      · rfl
    unfold GrowingBuffer.requestSpaceU GrowingBuffer.requestSpace
    rw [U.get_bind]
    split
    · rfl
    · show U.bind (GrowingBuffer.growU chk n) (fun _ => GrowingBuffer.moveU chk n) b = _
      unfold U.bind GrowingBuffer.growU
      rw [U.get_bind, U.look_bind]
      cases hl : GrowingBuffer.len chk b with
      | ok l =>
        dsimp only
        rw [U.look_bind]
        simp only [Res.bind_ok]
        cases uaddB chk n l with
        | ok need =>
          simp only [Res.bind_ok]
          by_cases hn : need > b.cap
          · rw [if_pos hn, if_pos hn, U.look_bind]
            unfold GrowingBuffer.reserve
            by_cases h1 : b.buffer.length + n ≤ b.cap
            · rw [if_pos h1]
              dsimp only
              rw [U.set_bind, U.look_bind]
              simp only [GrowingBuffer.setLen, Nat.le_refl, if_true, Res.bind_ok]
              exact move _ l (by show b.populated ≤ _; simp; omega) hl
            · rw [if_neg h1]
              by_cases h2 : b.buffer.length + n ≤ isizeMax
              · rw [if_pos h2]
                dsimp only
                rw [U.set_bind, U.look_bind]
                simp only [GrowingBuffer.setLen, Nat.le_refl, if_true, Res.bind_ok]
                exact move _ l (by show b.populated ≤ _; simp; omega) hl
              · rw [if_neg h2]; rfl
          · rw [if_neg hn, if_neg hn]
            exact move b l hpop hl
        | _ => rfl
      | _ => rfl

section
variable {S B I : Type} [UDataSource S I] [UHonest S I] [Buffer B I] [UBuffer B I] [LawfulBuffer B I]
  [SafeBuffer B I] [UnwindsSafe B I]

theorem fill_leaves (chk : Bool) (s : S) (b : B) (h : SafeBuffer.Safe b) :
    Leaves (UBuffer.fill chk (s, b)) (fun r x => SafeBuffer.Safe x.2 ∧
      ∀ n, r = some (.ok n) → SafeBuffer.room x.2 + n ≤ SafeBuffer.room b) := by
  have hb := Unwinds.fill ⟨0⟩ chk s b
  obtain ⟨r, s', b', h1, h2, h3⟩ :=
    @SafeBuffer.fill B I _ _ S b (UDataSource.failing ⟨0⟩) (failing_honest ⟨0⟩) chk s h
  rw [h1] at hb
  unfold Bridge at hb
  match hx : UBuffer.fill chk (s, b) with
  | .ok (some a, x) =>
    rw [hx] at hb
    cases hb
    exact .ok ⟨h2, fun n hn => h3 n (by cases hn; rfl)⟩
  | .ok (none, x) =>
    rw [hx] at hb
    rcases hb with hb | ⟨a, _, hb⟩
    · cases hb
    · cases hb
      exact .ok ⟨h2, fun n hn => nomatch hn⟩
  | .panic => rw [hx] at hb; cases hb
  | .ub => rw [hx] at hb; cases hb
  | .div => rw [hx] at hb; cases hb

theorem keep_leaves {b : B} {x : Res B} {P : B → Prop} (h : Tame x P) (hb : P b) :
    Leaves (keep b x) (fun _ b' => P b') := by
  rcases h with rfl | ⟨b', rfl, h'⟩
  · exact .ok hb
  · exact .ok h'

namespace Source

theorem fillBuffer_leaves (chk : Bool) (s : Source S B) (h : s.Safe) :
    Leaves (fillBufferU chk s) (fun r s' => s'.Safe ∧
      ∀ n, r = some (.ok n) → SafeBuffer.room s'.buffer + n ≤ SafeBuffer.room s.buffer) := by
  obtain ⟨r, x, e, h1, h2⟩ := Chomp.fill_leaves chk s.source s.buffer h.1
  unfold fillBufferU U.zoom
  rw [e]
  exact .ok ⟨⟨h1, h.2⟩, h2⟩

theorem fillLoop_leaves (chk : Bool) (req : Nat) : ∀ (n : Nat) (s : Source S B) (k : Nat),
    SafeBuffer.room s.buffer ≤ n → s.Safe →
    Leaves (U.loop (fillStepU chk req) k s) (fun _ s' => s'.Safe) := by
  intro n
  induction n with
  | zero | succ n ih =>
    intro s k hn h
    have step : Leaves (fillStepU chk req k s) (fun r s' => s'.Safe ∧
        ∀ m, r = some (.inl m) → SafeBuffer.room s'.buffer < SafeBuffer.room s.buffer) := by
      unfold fillStepU
      rw [U.get_bind]
      refine .look (SafeBuffer.len chk h.1) (fun l _ _ => ?_) ⟨h, fun m hm => nomatch hm⟩
      split
      · refine .bind (fillBuffer_leaves chk s h) ?_ ?_
        · rintro a s' _ ⟨h1, h2⟩
          match a with
          | .error e => exact .ok ⟨h1, fun m hm => nomatch hm⟩
          | .ok 0 => exact .ok ⟨h1, fun m hm => nomatch hm⟩
          | .ok (n + 1) =>
            have := h2 _ rfl
            refine .look (Tame.uadd chk k (n + 1)) (fun m _ _ => ?_) ⟨h1, fun m hm => nomatch hm⟩
            exact .ok ⟨h1, fun m _ => by omega⟩
        · rintro s' ⟨h1, _⟩
          exact ⟨h1, fun m hm => nomatch hm⟩
      · exact .ok ⟨h, fun m hm => nomatch hm⟩
    obtain ⟨r, s', e, h1, h2⟩ := step
    unfold U.loop
    rw [loop_apply, e]
    match r, h2 with
    | none, _ => exact .ok h1
    | some (.inr a), _ => exact .ok h1
    | some (.inl m), h2 =>
      have h3 := h2 m rfl
      first
      | exact ih s' m (by omega) h1
      | omega

theorem fillRequested_leaves (chk : Bool) (req : Nat) (hr : req ≤ usizeMax) (s : Source S B)
    (h : s.Safe) : Leaves (fillRequestedU chk req s) (fun _ s' => s'.Safe) := by
  unfold fillRequestedU
  rw [U.get_bind]
  refine .look (SafeBuffer.len chk h.1) (fun l hl _ => ?_) h
  split
  · rename_i hlt
    rw [usubB_ok (Nat.le_of_lt hlt), U.look_ok]
    refine .bind (P := fun _ s' => s'.Safe) ?_ ?_ ?_
    · refine (Leaves.zoom (P := fun _ b => SafeBuffer.Safe b) ?_).mono ?_
      · rw [UnwindsSafe.stays chk _ h.1]
        exact keep_leaves (SafeBuffer.request chk h.1 hl hlt hr) h.1
      · rintro r s' ⟨b, rfl, hb⟩
        exact ⟨hb, h.2⟩
    · intro _ s' _ hs
      exact fillLoop_leaves chk req _ s' 0 (Nat.le_refl _) hs
    · exact fun _ hs => hs
  · exact .ok h

theorem fill_leaves (chk : Bool) (s : Source S B) (h : s.Safe) :
    Leaves (fillU chk s) (fun _ s' => s'.Safe) := by
  unfold fillU
  rw [U.get_bind]
  refine .bind (fillRequested_leaves chk _ (Nat.max_le.mpr ⟨by decide, h.2⟩) s h) ?_ (fun _ hs => hs)
  intro r s' _ hs
  cases r with
  | error e => exact .ok hs
  | ok n =>
    dsimp only
    rw [U.get_bind, U.set_bind]
    exact .look (SafeBuffer.len chk hs.1) (fun l _ _ => .ok hs) hs

theorem consume_leaves (chk : Bool) (n : Nat) (s : Source S B) (h : s.Safe) :
    Leaves (onBuffer (UBuffer.consume chk n) s) (fun _ s' => s'.Safe) := by
  refine (Leaves.zoom (P := fun _ b => SafeBuffer.Safe b) ?_).mono ?_
  · rw [Unwinds.consume]
    exact keep_leaves (SafeBuffer.consume chk n h.1) h.1
  · rintro r s' ⟨b, rfl, hb⟩
    exact ⟨hb, h.2⟩

theorem read_leaves (chk : Bool) (k : Nat) (hk : k ≤ usizeMax) (s : Source S B) (h : s.Safe) :
    Leaves (readU chk k s) (fun _ s' => s'.Safe) := by
  unfold readU
  rw [U.get_bind]
  refine .look (SafeBuffer.len chk h.1) (fun l _ _ => ?_) h
  refine .bind (P := fun _ s' => s'.Safe) ?_ ?_ (fun _ hs => hs)
  · split
    · exact fillRequested_leaves chk k hk s h
    · exact .ok h
  · intro r s' _ hs
    cases r with
    | error e => exact .ok hs
    | ok n =>
      dsimp only
      rw [U.get_bind]
      refine .look (SafeBuffer.deref hs.1) (fun d _ _ => ?_) hs
      exact .bind (consume_leaves chk _ s' hs) (fun _ s'' _ hs => .ok hs) (fun _ hs => hs)

theorem fillBuf_leaves (chk : Bool) (s : Source S B) (h : s.Safe) :
    Leaves (fillBufU chk s) (fun _ s' => s'.Safe) := by
  unfold fillBufU
  rw [U.get_bind]
  refine .bind (fillRequested_leaves chk _ (SafeBuffer.capacity h.1) s h) ?_ (fun _ hs => hs)
  intro r s' _ hs
  cases r with
  | error e => exact .ok hs
  | ok n =>
    dsimp only
    rw [U.get_bind]
    exact .look (SafeBuffer.deref hs.1) (fun d _ _ => .ok hs) hs

theorem settle_tame (chk : Bool) (s : Source S B) (h : s.Safe) (r : ParseResult I T E) :
    Tame (settle chk s r) (fun x => x.2.Safe) := by
  unfold settle
  cases r with
  | data i t =>
    exact .bind (SafeBuffer.len chk h.1) fun l _ _ => .bind (.usub ..) fun d _ _ =>
      .bind (SafeBuffer.consume chk d h.1) fun b _ hb => .ok ⟨hb, h.2⟩
  | error i t =>
    exact .bind (SafeBuffer.len chk h.1) fun l _ _ => .bind (.usub ..) fun d _ _ =>
      .bind (SafeBuffer.consume chk d h.1) fun b _ hb => .ok ⟨hb, h.2⟩
  | incomplete n =>
    refine .bind (SafeBuffer.len chk h.1) fun l _ _ => .bind (.uadd ..) fun d _ hd => ?_
    dsimp only
    split
    · exact .ok ⟨h.1, hd⟩
    · exact .ok ⟨h.1, hd⟩

theorem attempt_leaves (chk : Bool) (f : UParser σ I T E) (hf : ∀ i w, ∃ x, f i w = .ok x)
    (s : Source S B) (h : s.Safe) (w : σ) :
    Leaves (attemptU chk f (s, w)) (fun _ x => x.1.Safe) := by
  rw [attempt_eq_U]
  rcases isEmpty_tame chk s h with e | ⟨c, e, _⟩
  · rw [e]; exact .ok h
  · rw [e]
    cases c with
    | true => exact .ok h
    | false =>
      rcases SafeBuffer.deref h.1 with e | ⟨b, e, _⟩
      · dsimp only; rw [e]; exact .ok h
      · dsimp only
        rw [e]
        obtain ⟨⟨r, w'⟩, e⟩ := hf ⟨modeOf s, b⟩ w
        dsimp only
        rw [e]
        cases r with
        | none => exact .ok h
        | some r =>
          rcases settle_tame chk s h r with e | ⟨⟨a, s'⟩, e, hs⟩
          · dsimp only; rw [e]; exact .ok h
          · dsimp only; rw [e]; exact .ok hs

theorem parse_leaves (chk : Bool) (f : UParser σ I T E) (hf : ∀ i w, ∃ x, f i w = .ok x)
    (s : Source S B) (h : s.Safe) (w : σ) :
    Leaves (parseU chk f (s, w)) (fun _ x => x.1.Safe) := by
  rw [parse_eq_U]
  have ha : Leaves (autoU chk s) (fun _ s' => s'.Safe) := by
    unfold autoU
    split
    · exact fill_leaves chk s h
    · exact .ok h
  obtain ⟨r, s', e, hs⟩ := ha
  rw [e]
  match r with
  | none => exact .ok hs
  | some (.error e) => exact .ok hs
  | some (.ok n) => exact attempt_leaves chk f hf s' hs w

end Source

/-! ### Regular use -/

theorem Spec.Intact.refl {s : Source S B} (h : Usable s) : Intact s s :=
  ⟨h, rfl, rfl, [], .done, (List.append_nil _).symm⟩

theorem Spec.Intact.of_filled {e : IoError} {chk : Bool} {req : Nat} {s s' : Source S B}
    {r : Except IoError Nat} {xs : List I}
    (h : @Source.Filled S B I (UDataSource.failing e) _ _ chk req s r s' xs) : Intact s s' := by
  letI : DataSource S I := UDataSource.failing e
  exact ⟨h.usable, h.request_eq, h.state, xs, .of_failing (e := e) h.reads, h.held⟩

namespace Source

theorem request_panics (chk : Bool) (req : Nat) (s : Source S B) (h : Usable s)
    (hl : (held s).length < req)
    (hp : Buffer.requestSpace chk (req - (held s).length) s.buffer = .panic) :
    fillRequestedU chk req s = .ok (none, s) := by
  unfold fillRequestedU
  have hb : LawfulBuffer.Inv s.buffer := h
  have hl' : (LawfulBuffer.view s.buffer).length < req := hl
  rw [U.get_bind, LawfulBuffer.len chk hb, U.look_ok, if_pos hl', usubB_ok (Nat.le_of_lt hl'), U.look_ok]
  refine U.bind_none ?_
  unfold onBuffer U.zoom
  rw [UnwindsSafe.stays chk _ (UnwindsSafe.safe hb)]
  have hp' : Buffer.requestSpace chk (req - (LawfulBuffer.view s.buffer).length) s.buffer = .panic := hp
  rw [hp']
  rfl

theorem fillRequested_intact (chk : Bool) (req : Nat) (s s' : Source S B) (h : Usable s)
    {r : Option (Except IoError Nat)} (hr : fillRequestedU chk req s = .ok (r, s')) : Intact s s' := by
  have hb := fillRequested_bridge ⟨0⟩ chk req s
  rw [hr] at hb
  rcases @fillRequested_spec S B I (UDataSource.failing ⟨0⟩) (failing_honest _) _ _ chk req s h with
    ⟨h1, h2, h3⟩ | ⟨r1, s1, xs, h1, h2⟩
  · rw [request_panics chk req s h h2 h3] at hr
    cases hr
    exact .refl h
  · rw [h1] at hb
    cases r with
    | some a => cases hb; exact .of_filled h2
    | none =>
      rcases hb with hb | ⟨a, _, hb⟩
      · cases hb
      · cases hb; exact .of_filled h2

theorem fill_panics (chk : Bool) (s s' : Source S B) (h : Usable s)
    (hr : fillU chk s = .ok (none, s')) : Intact s s' := by
  unfold fillU at hr
  rw [U.get_bind] at hr
  match hx : fillRequestedU chk (max 1 s.request) s with
  | .ok (none, s1) =>
    rw [U.bind_none hx] at hr
    cases hr
    exact fillRequested_intact chk _ s s' h hx
  | .ok (some (.error e), s1) => rw [U.bind_some hx] at hr; cases hr
  | .ok (some (.ok n), s1) =>
    have hi := fillRequested_intact chk _ s s1 h hx
    rw [U.bind_some hx] at hr
    dsimp only at hr
    have hb : LawfulBuffer.Inv s1.buffer := hi.1
    rw [U.get_bind, U.set_bind, LawfulBuffer.len chk hb] at hr
    cases hr
  | .panic => simp [Bind.bind, U.bind, hx] at hr
  | .ub => simp [Bind.bind, U.bind, hx] at hr
  | .div => simp [Bind.bind, U.bind, hx] at hr

theorem read_panics (chk : Bool) (k : Nat) (s s' : Source S B) (h : Usable s)
    (hr : readU chk k s = .ok (none, s')) : Intact s s' := by
  have hl : LawfulBuffer.Inv s.buffer := h
  unfold readU at hr
  rw [U.get_bind, show s.len chk = _ from LawfulBuffer.len chk hl, U.look_ok] at hr
  have key : ∀ x : U (Source S B) (Except IoError Nat),
      (∀ r s1, x s = .ok (r, s1) → Intact s s1) →
      (x >>= fun r => match r with
        | .error e => U.pure (.error e)
        | .ok _ => do
          let s ← U.get
          let data ← U.look (Buffer.deref s.buffer)
          onBuffer (UBuffer.consume chk (min k data.length))
          U.pure (.ok (data.take (min k data.length))) : U (Source S B) (Except IoError (List I))) s =
        .ok (none, s') → Intact s s' := by
    intro x hx hr
    match he : x s with
    | .ok (none, s1) => rw [U.bind_none he] at hr; cases hr; exact hx _ _ he
    | .ok (some (.error e), s1) => rw [U.bind_some he] at hr; cases hr
    | .ok (some (.ok n), s1) =>
      have hi := hx _ _ he
      rw [U.bind_some he] at hr
      dsimp only at hr
      have hb : LawfulBuffer.Inv s1.buffer := hi.1
      rw [U.get_bind, LawfulBuffer.deref hb, U.look_ok] at hr
      obtain ⟨b, g1, _⟩ := LawfulBuffer.consume
        (n := min k (LawfulBuffer.view s1.buffer).length) chk hb (Nat.min_le_right _ _)
      have : onBuffer (UBuffer.consume chk (min k (LawfulBuffer.view s1.buffer).length)) s1 =
          .ok (some (), { s1 with buffer := b }) := by
        unfold onBuffer U.zoom
        rw [Unwinds.consume, g1]
        rfl
      rw [U.bind_some this] at hr
      cases hr
    | .panic => simp [Bind.bind, U.bind, he] at hr
    | .ub => simp [Bind.bind, U.bind, he] at hr
    | .div => simp [Bind.bind, U.bind, he] at hr
  refine key _ ?_ hr
  intro r s1 he
  split at he
  · exact fillRequested_intact chk k s s1 h he
  · cases he; exact .refl h

theorem fillBuf_panics (chk : Bool) (s s' : Source S B) (h : Usable s)
    (hr : fillBufU chk s = .ok (none, s')) : Intact s s' := by
  unfold fillBufU at hr
  rw [U.get_bind] at hr
  match hx : fillRequestedU chk (Buffer.capacity s.buffer) s with
  | .ok (none, s1) =>
    rw [U.bind_none hx] at hr
    cases hr
    exact fillRequested_intact chk _ s s' h hx
  | .ok (some (.error e), s1) => rw [U.bind_some hx] at hr; cases hr
  | .ok (some (.ok n), s1) =>
    have hi := fillRequested_intact chk _ s s1 h hx
    rw [U.bind_some hx] at hr
    dsimp only at hr
    have hb : LawfulBuffer.Inv s1.buffer := hi.1
    rw [U.get_bind, LawfulBuffer.deref hb] at hr
    cases hr
  | .panic => simp [Bind.bind, U.bind, hx] at hr
  | .ub => simp [Bind.bind, U.bind, hx] at hr
  | .div => simp [Bind.bind, U.bind, hx] at hr

theorem consume_panics (chk : Bool) (n : Nat) (s s' : Source S B)
    (hr : consumeU chk n s = .ok (none, s')) : s' = s := by
  rw [consume_eq] at hr
  cases hc : s.consume chk n with
  | panic => rw [hc] at hr; cases hr; rfl
  | _ => rw [hc] at hr; cases hr

/-- After a `fill` which returned. -/
theorem fill_returns (chk : Bool) (s s' : Source S B) (h : Usable s) {n : Nat}
    (hr : fillU chk s = .ok (some (.ok n), s')) : s'.state.incomplete = false ∧ Usable s' ∧
      s'.request = s.request ∧ s'.state.automaticFill = s.state.automaticFill ∧
      ∃ xs, UReads s.source xs s'.source ∧ held s' = held s ++ xs := by
  have hb := fill_bridge ⟨0⟩ chk s
  rw [hr] at hb
  rcases @fill_spec S B I (UDataSource.failing ⟨0⟩) (failing_honest _) _ _ chk s h with
    ⟨h1, _⟩ | ⟨e, s1, xs, h1, h2⟩ | ⟨n, s1, xs, h1, h2⟩
  · rw [h1] at hb; cases hb
  · rw [h1] at hb; cases hb
  · rw [h1] at hb
    cases hb
    letI : DataSource S I := UDataSource.failing ⟨0⟩
    exact ⟨rfl, h2.usable, h2.request_eq, 
      show s1.state.automaticFill = _ by rw [h2.state], xs, .of_failing (e := ⟨0⟩) h2.reads, h2.held⟩

/-- If `attempt` panics, the source is what it was. -/
theorem attempt_panics (chk : Bool) (f : UParser σ I T E) (s s' : Source S B) (w w' : σ)
    (hr : attemptU chk f (s, w) = .ok (none, s', w')) : s' = s := by
  rw [attempt_eq_U] at hr
  cases hc : s.isEmpty chk with
  | ok c =>
    rw [hc] at hr
    cases c with
    | true => cases hr
    | false =>
      dsimp only at hr
      cases hd : Buffer.deref s.buffer with
      | ok b =>
        rw [hd] at hr
        dsimp only at hr
        match hf : f ⟨modeOf s, b⟩ w with
        | .ok (some r, w1) =>
          rw [hf] at hr
          dsimp only at hr
          match hs : settle chk s r with
          | .ok (a, s1) => rw [hs] at hr; cases hr
          | .panic => rw [hs] at hr; cases hr; rfl
          | .ub => rw [hs] at hr; cases hr
          | .div => rw [hs] at hr; cases hr
        | .ok (none, w1) => rw [hf] at hr; cases hr; rfl
        | .panic => rw [hf] at hr; cases hr
        | .ub => rw [hf] at hr; cases hr
        | .div => rw [hf] at hr; cases hr
      | panic => rw [hd] at hr; cases hr; rfl
      | ub => rw [hd] at hr; cases hr
      | div => rw [hd] at hr; cases hr
  | panic => rw [hc] at hr; cases hr; rfl
  | ub => rw [hc] at hr; cases hr
  | div => rw [hc] at hr; cases hr

/-- Where a panic in `parse` may come from. -/
theorem parse_panics (chk : Bool) (f : UParser σ I T E) (s s' : Source S B) (w w' : σ)
    (hr : parseU chk f (s, w) = .ok (none, s', w')) :
    (s.state.incomplete && s.state.automaticFill) = true ∧ fillU chk s = .ok (none, s') ∧ w' = w ∨
    (∃ n, autoU chk s = .ok (some (.ok n), s')) ∧ attemptU chk f (s', w) = .ok (none, s', w') := by
  rw [parse_eq_U] at hr
  match ha : autoU chk s with
  | .ok (none, s1) =>
    rw [ha] at hr
    cases hr
    left
    unfold autoU at ha
    split at ha
    · rename_i hc; exact ⟨hc, ha, rfl⟩
    · cases ha
  | .ok (some (.error e), s1) => rw [ha] at hr; cases hr
  | .ok (some (.ok n), s1) =>
    rw [ha] at hr
    have := attempt_panics chk f s1 s' w w' hr
    subst this
    exact .inr ⟨⟨n, rfl⟩, hr⟩
  | .panic => rw [ha] at hr; cases hr
  | .ub => rw [ha] at hr; cases hr
  | .div => rw [ha] at hr; cases hr

/-- A parser may be replaced by one which panics less often. -/
theorem attempt_partly (chk : Bool) (f : UParser σ I T E) (p : Parser σ I T E) (hf : Partly f p)
    (s s' : Source S B) (w w' : σ) (r : Except (StreamError I E) T)
    (hr : s.attempt chk f.forget w = .ok ((r, s'), w')) : s.attempt chk p w = .ok ((r, s'), w') := by
  rw [attempt_settle] at hr ⊢
  cases hc : s.isEmpty chk with
  | ok c =>
    rw [hc] at hr
    cases c with
    | true => exact hr
    | false =>
      rw [Res.bind_ok, if_neg Bool.false_ne_true] at hr ⊢
      cases hd : Buffer.deref s.buffer with
      | ok b =>
        rw [hd, Res.bind_ok] at hr
        rw [Res.bind_ok]
        match hx : f ⟨modeOf s, b⟩ w with
        | .ok (some a, w1) =>
          rw [hf _ _ _ _ hx]
          unfold UParser.forget at hr
          rw [hx] at hr
          exact hr
        | .ok (none, w1) => unfold UParser.forget at hr; rw [hx] at hr; cases hr
        | .panic => unfold UParser.forget at hr; rw [hx] at hr; cases hr
        | .ub => unfold UParser.forget at hr; rw [hx] at hr; cases hr
        | .div => unfold UParser.forget at hr; rw [hx] at hr; cases hr
      | _ => rw [hd] at hr; cases hr
  | _ => rw [hc] at hr; cases hr

end Source

/-- One call. -/
theorem caught_call (chk : Bool) (c : UCall σ I) (hc : c.Sound) (s : Source S B) (h : s.Safe) (w : σ) :
    ∃ s' w', c.run chk (s, w) = .ok (s', w') ∧ s'.Safe := by
  have look : ∀ {α : Type} (r : Res α), Tame r (fun _ => True) →
      UCall.run.look (s, w) r = .ok (s, w) := by
    intro α r hr
    rcases hr with rfl | ⟨a, rfl, _⟩ <;> rfl
  have leave : ∀ {α : Type} (r : Res (Option α × Source S B)), Leaves r (fun _ s' => s'.Safe) →
      ∃ s' w', UCall.run.pair (s, w) (UCall.run.state r) = .ok (s', w') ∧ s'.Safe := by
    rintro α r ⟨a, s', rfl, hs⟩
    exact ⟨s', w, rfl, hs⟩
  cases c with
  | parse f =>
    obtain ⟨r, ⟨s', w'⟩, e, hs⟩ := Source.parse_leaves chk f hc s h w
    refine ⟨s', w', ?_, hs⟩
    show UCall.run.state (Source.parseU chk f (s, w)) = _
    rw [e]
    rfl
  | fill => exact leave _ (Source.fill_leaves chk s h)
  | len => exact ⟨s, w, look _ (SafeBuffer.len chk h.1), h⟩
  | isEmpty => exact ⟨s, w, look _ (Source.isEmpty_tame chk s h), h⟩
  | buffer => exact ⟨s, w, look _ (SafeBuffer.deref h.1), h⟩
  | reset => exact ⟨s.reset, w, rfl, h⟩
  | setAutofill v => exact ⟨s.setAutofill v, w, rfl, h⟩
  | read k => exact leave _ (Source.read_leaves chk k (Nat.le_trans hc (Nat.le_of_lt isize_lt)) s h)
  | fillBuf => exact leave _ (Source.fillBuf_leaves chk s h)
  | consume n => exact leave _ (Source.consume_leaves chk n s h)

theorem caught_calls (chk : Bool) : ∀ (cs : List (UCall σ I)), (∀ c ∈ cs, c.Sound) →
    ∀ (s : Source S B) (w : σ), s.Safe → ∃ s' w', runCaught chk cs (s, w) = .ok (s', w') ∧ s'.Safe := by
  intro cs
  induction cs with
  | nil => intro _ s w h; exact ⟨s, w, rfl, h⟩
  | cons c cs ih =>
    intro hc s w h
    obtain ⟨s', w', e, hs⟩ := caught_call chk c (hc c (by simp)) s h w
    obtain ⟨s'', w'', e', hs'⟩ := ih (fun d hd => hc d (by simp [hd])) s' w' hs
    refine ⟨s'', w'', ?_, hs'⟩
    show (c.run chk (s, w) >>= fun x => runCaught chk cs x) = _
    rw [e]
    exact e'

end

/-! ### For examples -/

namespace Source

variable {S B I : Type} [UDataSource S I] [Buffer B I] [UBuffer B I]

theorem fillRequested_eval {chk : Bool} {req l d : Nat} {s : Source S B} {b : B}
    {x : Res (Option (Except IoError Nat) × Source S B)} (hl : Buffer.len chk s.buffer = .ok l)
    (hlt : l < req) (hd : usubB chk req l = .ok d)
    (hb : UBuffer.requestSpace chk d s.buffer = .ok (some (), b))
    (hx : U.loop (fillStepU chk req) 0 { s with buffer := b } = x) : fillRequestedU chk req s = x := by
  unfold fillRequestedU
  rw [U.get_bind, hl, U.look_ok, if_pos hlt, hd, U.look_ok]
  have : onBuffer (UBuffer.requestSpace chk d) s = .ok (some (), { s with buffer := b }) := by
    unfold onBuffer U.zoom
    rw [hb]
  rw [U.bind_some this]
  exact hx

theorem fill_none {chk : Bool} {s s' : Source S B}
    (h : fillRequestedU chk (max 1 s.request) s = .ok (none, s')) : fillU chk s = .ok (none, s') := by
  unfold fillU
  rw [U.get_bind]
  exact U.bind_none h

theorem fill_some {chk : Bool} {n l : Nat} {s s' : Source S B}
    (h : fillRequestedU chk (max 1 s.request) s = .ok (some (.ok n), s'))
    (hl : Buffer.len chk s'.buffer = .ok l) :
    fillU chk s = .ok (some (.ok n), { s' with state :=
      { s'.state with incomplete := false, endOfInput := !decide (l ≥ max 1 s.request) } }) := by
  unfold fillU
  rw [U.get_bind, U.bind_some h]
  dsimp only
  rw [U.get_bind, U.set_bind, hl]
  rfl

end Source

/-! ### Slices -/

namespace SliceStream

/-- `x` is `y`, and a panic has left `s`. -/
def Kept (s : SliceStream I) (x : Res (Option α × SliceStream I × σ)) (y : Res ((α × SliceStream I) × σ)) :
    Prop :=
  match x with
  | .ok (some a, s', w) => y = .ok ((a, s'), w)
  | .ok (none, s', _) => s' = s ∧ y = .panic
  | .panic => y = .panic
  | .ub => y = .ub
  | .div => y = .div

theorem Kept.look {s : SliceStream I} {r : Res β} {k : β → U (SliceStream I × σ) α}
    {k' : β → M σ (α × SliceStream I)} {w : σ} (h : ∀ b, Kept s (k b (s, w)) (k' b w)) :
    Kept s ((U.look r >>= k) (s, w)) ((M.lift r >>= k') w) := by
  rw [U.look_bind, M.lift_bind]
  cases r with
  | ok b => exact h b
  | panic => exact ⟨rfl, rfl⟩
  | ub => exact rfl
  | div => exact rfl

theorem parse_kept (chk : Bool) (f : UParser σ I T E) (s : SliceStream I) (w : σ) :
    Kept s (parseU chk f (s, w)) (s.parse chk f.forget w) := by
  unfold parseU parse
  rw [U.get_bind]
  refine .look fun c => ?_
  cases c with
  | true => exact rfl
  | false =>
    rw [if_neg Bool.false_ne_true, if_neg Bool.false_ne_true]
    have hs : (sliceFrom s.slice s.pos : M σ _) =
        M.lift (if s.pos ≤ s.slice.length then .ok (s.slice.drop s.pos) else .panic) := by
      unfold sliceFrom
      split <;> rfl
    rw [hs]
    refine .look fun b => ?_
    rw [M.bind_apply]
    show Kept s (U.bind (U.zoom _ _ _) _ _) _
    unfold U.bind U.zoom UParser.forget
    match f ⟨.endOfInput, b⟩ w with
    | .ok (some r, w') =>
      cases r with
      | data i t => refine .look (s := s) (w := w') fun l => .look fun d => .look fun p => ?_; exact rfl
      | error i t => refine .look (s := s) (w := w') fun l => .look fun d => .look fun p => ?_; exact rfl
      | incomplete n => refine .look (s := s) (w := w') fun l => .look fun d => ?_; exact rfl
    | .ok (none, w') => exact ⟨rfl, rfl⟩
    | .panic => exact rfl
    | .ub => exact rfl
    | .div => exact rfl

theorem parse_forget (chk : Bool) (f : UParser σ I T E) (s : SliceStream I) (w : σ) :
    forget (parseU chk f (s, w)) = regroup (s.parse chk f.forget w) := by
  have h := parse_kept chk f s w
  match hx : parseU chk f (s, w) with
  | .ok (some a, s', w') => rw [hx] at h; rw [show s.parse chk f.forget w = _ from h]; rfl
  | .ok (none, s', w') => rw [hx] at h; rw [h.2]; rfl
  | .panic => rw [hx] at h; rw [show s.parse chk f.forget w = _ from h]; rfl
  | .ub => rw [hx] at h; rw [show s.parse chk f.forget w = _ from h]; rfl
  | .div => rw [hx] at h; rw [show s.parse chk f.forget w = _ from h]; rfl

theorem parse_panics (chk : Bool) (f : UParser σ I T E) (s s' : SliceStream I) (w w' : σ)
    (hr : parseU chk f (s, w) = .ok (none, s', w')) : s' = s := by
  have h := parse_kept chk f s w
  rw [hr] at h
  exact h.1

end SliceStream

end Chomp
