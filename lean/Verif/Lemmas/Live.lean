import Verif.Spec.Live
import Verif.Lemmas.Source
import Verif.Lemmas.Repeat

/-
Helper lemmas for C119: a source with effects on a state is compared with one without, whose state contains that
state.
-/

namespace Chomp

open Spec Spec.Live

namespace Live

variable {σ S B I : Type}

/-- A source together with the state its reads change. -/
structure Paired (S σ : Type) where
  src : S
  world : σ

/-- The read of a pair; `e` is what it returns if the read does not return. -/
def pairRead [LiveSource σ S I] (e : IoError) (s : Paired S σ) (k : Nat) : ReadOut I × Paired S σ :=
  match LiveSource.read s.src k s.world with
  | .ok ((out, s'), w') => (out, ⟨s', w'⟩)
  | _ => (⟨[], .error e⟩, s)

@[reducible] def paired [LiveSource σ S I] (e : IoError) : DataSource (Paired S σ) I := ⟨pairRead e⟩

theorem pairRead_ok [LiveSource σ S I] {e : IoError} {s s' : S} {w w' : σ} {k : Nat} {out : ReadOut I}
    (h : LiveSource.read s k w = .ok ((out, s'), w')) : pairRead e ⟨s, w⟩ k = (out, ⟨s', w'⟩) := by
  unfold pairRead; rw [h]

theorem paired_honest [LiveSource σ S I] [Honest σ S I] (e : IoError) :
    @HonestSource (Paired S σ) I (paired e) := by
  letI := paired (σ := σ) (S := S) e
  constructor
  intro s k n h
  change (pairRead e s k).1.result = _ at h
  change _ ∧ (pairRead e s k).1.items.length = n
  unfold pairRead at h ⊢
  split at h
  · next out s' w' hr => exact Honest.honest _ _ _ _ _ _ _ hr h
  · cases h

theorem ReadsTo.trans [LiveSource σ S I] {s s1 s2 : S} {w w1 w2 : σ} {xs ys : List I}
    (h : ReadsTo s w xs s1 w1) (g : ReadsTo s1 w1 ys s2 w2) : ReadsTo s w (xs ++ ys) s2 w2 := by
  induction h with
  | done => exact g
  | step k h _ ih => rw [List.append_assoc]; exact .step k h (ih g)

theorem Handed.trans [LiveSource σ S I] {s s1 s2 : S} {xs ys : List I}
    (h : Handed σ s xs s1) (g : Handed σ s1 ys s2) : Handed σ s (xs ++ ys) s2 := by
  induction h with
  | done => exact g
  | step k h _ ih => rw [List.append_assoc]; exact .step k h (ih g)

theorem ReadsTo.handed [LiveSource σ S I] {s s' : S} {w w' : σ} {xs : List I}
    (h : ReadsTo s w xs s' w') : Handed σ s xs s' := by
  induction h with
  | done => exact .done
  | step k h _ ih => exact .step k h ih

/-- Reads of the pair which do something are reads of the source. -/
theorem reads_of_paired [LiveSource σ S I] {e : IoError} {s s' : Paired S σ} {xs : List I}
    (h : @Chomp.Reads (Paired S σ) I (paired e) s xs s') :
    ReadsTo s.src s.world xs s'.src s'.world := by
  letI := paired (σ := σ) (S := S) e
  induction h with
  | done => exact .done
  | @step s xs s' k _ ih =>
    change ReadsTo (pairRead e s k).2.src (pairRead e s k).2.world xs s'.src s'.world at ih
    change ReadsTo s.src s.world ((pairRead e s k).1.items ++ xs) s'.src s'.world
    unfold pairRead at ih ⊢
    split at ih
    · next out s1 w1 hr => exact .step k hr ih
    · exact ih

theorem last_of_paired [LiveSource σ S I] {e : IoError} {s s' : Paired S σ} {xs : List I} {k : Nat}
    {r : Except IoError Nat} (hne : r ≠ .error e)
    (h : @Spec.LastRead (Paired S σ) I (paired e) s xs k r s') :
    LastReadTo s.src s.world xs r s'.src s'.world := by
  letI := paired (σ := σ) (S := S) e
  obtain ⟨s1, h1, h2, h3, h4⟩ := h
  change pairRead e s1 k = ((pairRead e s1 k).1, s') at h2
  change (pairRead e s1 k).1.result = r at h3
  change (pairRead e s1 k).1.items = [] at h4
  have h5 := reads_of_paired h1
  unfold pairRead at h2 h3 h4
  split at h2
  · next out s2 w2 hr =>
    rw [hr] at h3 h4
    cases h2
    exact ⟨_, _, k, out, h5, hr, h3, h4⟩
  · next g =>
    split at h3
    · next hr => exact absurd hr (g _ _ _)
    · exact absurd h3.symm hne

/-- `x`, which calls a source, begins with `s` and `w` and does what `y` does, which calls the pair; unless a read
does not return. -/
inductive Tracks [LiveSource σ S I] (g : α → S) (f : α → σ → β) (s : S) (w : σ) : Res (α × σ) → Res β → Prop
  | ok {a w' xs} : ReadsTo s w xs (g a) w' → Tracks g f s w (.ok (a, w')) (.ok (f a w'))
  | panic : Tracks g f s w .panic .panic
  | ub : Tracks g f s w .ub .ub
  | div : Tracks g f s w .div .div
  | fails {x y} : Fails s w x → Tracks g f s w x y

variable [LiveSource σ S I]

theorem Fails.after {s s1 : S} {w w1 : σ} {xs : List I} {o : Res α} (h : ReadsTo s w xs s1 w1)
    (g : Fails s1 w1 o) : Fails s w o := by
  obtain ⟨ys, s2, w2, k, h1, h2⟩ := g
  exact ⟨_, s2, w2, k, ReadsTo.trans h h1, h2⟩

theorem Fails.map {s : S} {w : σ} {o : Res α} {o' : Res β} (g : Fails s w o) (h : Same o o') :
    Fails s w o' := by
  obtain ⟨ys, s2, w2, k, h1, h2⟩ := g
  refine ⟨ys, s2, w2, k, h1, ?_⟩
  cases h <;> cases hr : LiveSource.read (I := I) s2 k w2 <;> rw [hr] at h2 <;> cases h2 <;> constructor

theorem Fails.not_ok {s : S} {w : σ} {a : α} (g : Fails s w (Res.ok a)) : False := by
  obtain ⟨_, s1, w1, k, _, h⟩ := g
  cases hr : LiveSource.read (I := I) s1 k w1 <;> rw [hr] at h <;> cases h

theorem Fails.same {s : S} {w : σ} {o : Res α} (g : Fails s w o) : Same o o := by
  cases o with
  | ok a => exact (Fails.not_ok g).elim
  | panic => exact .panic
  | ub => exact .ub
  | div => exact .div

theorem Tracks.after {g : α → S} {f : α → σ → β} {s s1 : S} {w w1 : σ} {xs : List I} {x : Res (α × σ)} {y : Res β}
    (h : ReadsTo s w xs s1 w1) (t : Tracks g f s1 w1 x y) : Tracks g f s w x y := by
  cases t with
  | ok h1 => exact .ok (ReadsTo.trans h h1)
  | panic => exact .panic
  | ub => exact .ub
  | div => exact .div
  | fails h1 => exact .fails (Fails.after h h1)

theorem Tracks.bind {g : α → S} {f : α → σ → β} {g' : α' → S} {f' : α' → σ → β'} {s : S} {w : σ}
    {x : Res (α × σ)} {y : Res β} {k : α × σ → Res (α' × σ)} {l : β → Res β'}
    (t : Tracks g f s w x y) (h : ∀ a w', Tracks g' f' (g a) w' (k (a, w')) (l (f a w'))) :
    Tracks g' f' s w (x >>= k) (y >>= l) := by
  cases t with
  | ok h1 => exact Tracks.after h1 (h _ _)
  | panic => exact .panic
  | ub => exact .ub
  | div => exact .div
  | fails h1 =>
    cases x with
    | ok a => exact (Fails.not_ok h1).elim
    | panic => exact .fails (Fails.map h1 .panic)
    | ub => exact .fails (Fails.map h1 .ub)
    | div => exact .fails (Fails.map h1 .div)

theorem Tracks.lift {g : α' → S} {f : α' → σ → β'} {s : S} {w : σ} (c : Res α)
    {k : α → M σ α'} {l : α → Res β'} (h : ∀ a, Tracks g f s w (k a w) (l a)) :
    Tracks g f s w ((M.lift c >>= k) w) (c >>= l) := by
  cases c with
  | ok a => exact h a
  | panic => exact .panic
  | ub => exact .ub
  | div => exact .div

/-- Loops. -/
theorem Tracks.loop {X R Y R' : Type} {step : X → M σ (X ⊕ R)} {step' : Y → M Unit (Y ⊕ R')}
    {gx : X → S} {gr : R → S} {fx : X → σ → Y} {fr : R → σ → R'}
    (h : ∀ x w, Tracks (Sum.elim gx gr)
      (fun a w => (Sum.elim (fun x => Sum.inl (fx x w)) (fun r => Sum.inr (fr r w)) a, ()))
      (gx x) w (step x w) (step' (fx x w) ())) (x : X) (w : σ) :
    Tracks gr (fun r w => (fr r w, ())) (gx x) w (loop step x w) (loop step' (fx x w) ()) := by
  by_cases hd : Chomp.loop step x w = .div
  · by_cases hd' : Chomp.loop step' (fx x w) () = .div
    · rw [hd, hd']; exact .div
    · have hr := loop_run _ _ hd'
      generalize ho : Chomp.loop step' (fx x w) () = o at hr
      clear hd' ho
      generalize hy : fx x w = y at hr
      generalize () = u at hr
      induction hr generalizing x w with
      | @brk y u r u' hs =>
        subst hy
        have t := h x w
        rw [loop_apply] at hd ⊢
        rw [show step' (fx x w) () = _ from hs] at t
        generalize step x w = z at t hd
        cases z with
        | ok p =>
          obtain ⟨a, w'⟩ := p
          cases a with
          | inl x' =>
            generalize hz : (Res.ok (Sum.inr r, u') : Res ((Y ⊕ R') × Unit)) = z' at t
            cases t with
            | ok h1 => cases hz
            | fails h1 => exact (Fails.not_ok h1).elim
          | inr r => cases hd
        | panic => cases hd
        | ub => cases hd
        | div =>
          cases t with
          | fails h1 => exact .fails (Fails.map h1 .div)
      | @panic y u hs =>
        subst hy
        have t := h x w
        rw [loop_apply] at hd ⊢
        rw [show step' (fx x w) () = _ from hs] at t
        generalize step x w = z at t hd
        cases z with
        | ok p => cases t with | fails h1 => exact (Fails.not_ok h1).elim
        | panic => cases hd
        | ub => cases hd
        | div =>
          cases t with
          | fails h1 => exact .fails (Fails.map h1 .div)
      | @ub y u hs =>
        subst hy
        have t := h x w
        rw [loop_apply] at hd ⊢
        rw [show step' (fx x w) () = _ from hs] at t
        generalize step x w = z at t hd
        cases z with
        | ok p => cases t with | fails h1 => exact (Fails.not_ok h1).elim
        | panic => cases hd
        | ub => cases hd
        | div =>
          cases t with
          | fails h1 => exact .fails (Fails.map h1 .div)
      | @cont y u y' u' o hs _ ih =>
        subst hy
        have t := h x w
        rw [loop_apply] at hd ⊢
        rw [show step' (fx x w) () = _ from hs] at t
        generalize step x w = z at t hd
        cases z with
        | ok p =>
          obtain ⟨a, w'⟩ := p
          generalize hz : (Res.ok (Sum.inl y', u') : Res ((Y ⊕ R') × Unit)) = z' at t
          cases t with
          | ok h1 =>
            cases a with
            | inl x' =>
              cases hz
              exact Tracks.after h1 (ih x' w' hd rfl)
            | inr r => cases hz
          | fails h1 => exact (Fails.not_ok h1).elim
        | panic => cases hd
        | ub => cases hd
        | div =>
          cases t with
          | fails h1 => exact .fails (Fails.map h1 .div)
  · have hr := loop_run _ _ hd
    generalize Chomp.loop step x w = o at hr
    clear hd
    induction hr with
    | @brk x w r w' hs =>
      have t := h x w
      rw [hs] at t
      rw [loop_apply]
      generalize step' (fx x w) () = z at t
      cases t with
      | ok h1 => exact .ok h1
      | fails h1 => exact (Fails.not_ok h1).elim
    | @panic x w hs =>
      have t := h x w
      rw [hs] at t
      rw [loop_apply]
      generalize step' (fx x w) () = z at t
      cases t with
      | panic => exact .panic
      | fails h1 => exact .fails (Fails.map h1 .panic)
    | @ub x w hs =>
      have t := h x w
      rw [hs] at t
      rw [loop_apply]
      generalize step' (fx x w) () = z at t
      cases t with
      | ub => exact .ub
      | fails h1 => exact .fails (Fails.map h1 .ub)
    | @cont x w x' w' o hs _ ih =>
      have t := h x w
      rw [hs] at t
      rw [loop_apply]
      generalize step' (fx x w) () = z at t
      cases t with
      | ok h1 => exact Tracks.after h1 ih
      | fails h1 => exact (Fails.not_ok h1).elim

/-! ### The functions of `Source` -/

instance : OneRead (FixedSizeBuffer I) I where
  fill chk b := by
    by_cases h : b.populated ≤ b.buffer.length
    · right
      refine ⟨b.buffer.length - b.populated, fun out =>
        let b := { b with
          buffer := b.buffer.take b.populated ++ overlay (b.buffer.drop b.populated) out.writes }
        match out.result with
        | .error e => .ok (.error e, b)
        | .ok n => do
          debugAssert chk (b.populated + n ≤ b.buffer.length)
          let p ← uaddB chk b.populated n
          .ok (.ok n, { b with populated := p }), ?_, ?_⟩
      · intro σ S _ s w
        show FixedSizeBuffer.fillLive chk s b w = _
        unfold FixedSizeBuffer.fillLive
        rw [if_pos h, M.bind_apply]
        cases LiveSource.read s (b.buffer.length - b.populated) w with
        | ok x =>
          obtain ⟨⟨⟨ws, r⟩, s'⟩, w'⟩ := x
          cases r with
          | error e => rfl
          | ok n =>
            dsimp only [Res.bind_ok]
            rw [M.lift_bind]
            cases debugAssert chk _ with
            | ok u =>
              dsimp only [Res.bind_ok]
              rw [M.lift_bind]
              cases uaddB chk _ _ <;> rfl
            | _ => rfl
        | _ => rfl
      · intro S _ s
        show FixedSizeBuffer.fill chk s b = _
        unfold FixedSizeBuffer.fill
        rw [if_pos h]
        cases DataSource.read s (b.buffer.length - b.populated) with
        | mk out s' =>
          obtain ⟨ws, r⟩ := out
          cases r with
          | error e => rfl
          | ok n =>
            dsimp only
            cases debugAssert chk _ with
            | ok u =>
              dsimp only [Res.bind_ok]
              cases uaddB chk _ _ <;> rfl
            | _ => rfl
    · left
      refine ⟨fun σ S _ s => ?_, fun S _ s => ?_⟩
      · show FixedSizeBuffer.fillLive chk s b = _
        unfold FixedSizeBuffer.fillLive
        exact if_neg h
      · show FixedSizeBuffer.fill chk s b = _
        unfold FixedSizeBuffer.fill
        exact if_neg h

instance : OneRead (GrowingBuffer I) I where
  fill chk b := by
    by_cases h : b.populated ≤ b.buffer.length
    · right
      refine ⟨b.buffer.length - b.populated, fun out =>
        let b := { b with
          buffer := b.buffer.take b.populated ++ overlay (b.buffer.drop b.populated) out.writes }
        match out.result with
        | .error e => .ok (.error e, b)
        | .ok n => do
          debugAssert chk (b.populated + n ≤ b.buffer.length)
          let p ← uaddB chk b.populated n
          .ok (.ok n, { b with populated := p }), ?_, ?_⟩
      · intro σ S _ s w
        show GrowingBuffer.fillLive chk s b w = _
        unfold GrowingBuffer.fillLive
        rw [if_pos h, M.bind_apply]
        cases LiveSource.read s (b.buffer.length - b.populated) w with
        | ok x =>
          obtain ⟨⟨⟨ws, r⟩, s'⟩, w'⟩ := x
          cases r with
          | error e => rfl
          | ok n =>
            dsimp only [Res.bind_ok]
            rw [M.lift_bind]
            cases debugAssert chk _ with
            | ok u =>
              dsimp only [Res.bind_ok]
              rw [M.lift_bind]
              cases uaddB chk _ _ <;> rfl
            | _ => rfl
        | _ => rfl
      · intro S _ s
        show GrowingBuffer.fill chk s b = _
        unfold GrowingBuffer.fill
        rw [if_pos h]
        cases DataSource.read s (b.buffer.length - b.populated) with
        | mk out s' =>
          obtain ⟨ws, r⟩ := out
          cases r with
          | error e => rfl
          | ok n =>
            dsimp only
            cases debugAssert chk _ with
            | ok u =>
              dsimp only [Res.bind_ok]
              cases uaddB chk _ _ <;> rfl
            | _ => rfl
    · left
      refine ⟨fun σ S _ s => ?_, fun S _ s => ?_⟩
      · show GrowingBuffer.fillLive chk s b = _
        unfold GrowingBuffer.fillLive
        exact if_neg h
      · show GrowingBuffer.fill chk s b = _
        unfold GrowingBuffer.fill
        exact if_neg h

variable [Buffer B I] [LiveBuffer B I]

theorem fill_tracks [OneRead B I] (e : IoError) (chk : Bool) (s : S) (b : B) (w : σ) :
    Tracks (fun a => a.2.1) (fun a w => (a.1, ⟨a.2.1, w⟩, a.2.2)) s w (LiveBuffer.fill chk s b w)
      (@Buffer.fill B I _ _ (paired e) chk (⟨s, w⟩ : Paired S σ) b) := by
  letI := paired (σ := σ) (S := S) e
  rcases OneRead.fill chk b with ⟨h1, h2⟩ | ⟨k, post, h1, h2⟩
  · rw [h1, h2]; exact .panic
  · rw [h1, h2]
    change Tracks _ _ s w _ (post (pairRead e ⟨s, w⟩ k).1 >>= fun y => .ok (y.1, (pairRead e ⟨s, w⟩ k).2, y.2))
    cases hr : LiveSource.read s k w with
    | ok x =>
      obtain ⟨⟨out, s'⟩, w'⟩ := x
      rw [pairRead_ok hr]
      dsimp only [Res.bind_ok]
      cases post out with
      | ok y => exact .ok (.step k hr .done)
      | panic => exact .panic
      | ub => exact .ub
      | div => exact .div
    | panic => exact .fails ⟨[], s, w, k, .done, by rw [hr]; exact .panic⟩
    | ub => exact .fails ⟨[], s, w, k, .done, by rw [hr]; exact .ub⟩
    | div => exact .fails ⟨[], s, w, k, .done, by rw [hr]; exact .div⟩

/-- The `Source` of pairs. -/
def pair (s : Source S B) (w : σ) : Source (Paired S σ) B :=
  { source := ⟨s.source, w⟩, buffer := s.buffer, request := s.request, state := s.state }

theorem fillStep_tracks [OneRead B I] (e : IoError) (chk : Bool) (request : Nat) (x : S × B × Nat) (w : σ) :
    Tracks (Sum.elim (fun a : S × B × Nat => a.1) (fun a : Except IoError Nat × S × B => a.2.1))
      (fun a w => (Sum.elim (fun a => Sum.inl ((⟨a.1, w⟩ : Paired S σ), a.2.1, a.2.2))
        (fun a => Sum.inr (a.1, (⟨a.2.1, w⟩ : Paired S σ), a.2.2)) a, ()))
      x.1 w (Source.fillStepLive chk request x w)
      (@Source.fillStep _ B I (paired e) _ chk request (⟨x.1, w⟩, x.2.1, x.2.2) ()) := by
  letI := paired (σ := σ) (S := S) e
  obtain ⟨s, b, k⟩ := x
  unfold Source.fillStepLive Source.fillStep
  dsimp only
  rw [M.lift_bind (σ := Unit)]
  refine Tracks.lift _ fun l => ?_
  by_cases hl : l < request
  · rw [if_pos hl, if_pos hl, M.lift_bind (σ := Unit), M.bind_apply]
    refine Tracks.bind (fill_tracks e chk s b w) ?_
    intro a w'
    obtain ⟨r, s', b'⟩ := a
    cases r with
    | error e => exact .ok (a := Sum.inr _) .done
    | ok n =>
      cases n with
      | zero => exact .ok (a := Sum.inr _) .done
      | succ n =>
        show Tracks _ _ s' w' ((M.lift (uaddB chk k (n + 1)) >>= fun read => pure (Sum.inl (s', b', read))) w')
          ((M.lift (uaddB chk k (n + 1)) >>= fun read =>
            pure (Sum.inl ((⟨s', w'⟩ : Paired S σ), b', read)) : M Unit _) ())
        rw [M.lift_bind (σ := Unit)]
        refine Tracks.lift _ fun m => ?_
        exact .ok (a := Sum.inl _) .done
  · rw [if_neg hl, if_neg hl]
    exact .ok (a := Sum.inr _) .done

theorem fillRequested_tracks [OneRead B I] (e : IoError) (chk : Bool) (request : Nat) (s : Source S B) (w : σ) :
    Tracks (fun a => a.2.source) (fun a w => (a.1, pair a.2 w)) s.source w
      (Source.fillRequestedLive chk request s w)
      (@Source.fillRequested _ B I (paired e) _ chk request (pair s w)) := by
  letI := paired (σ := σ) (S := S) e
  unfold Source.fillRequestedLive Source.fillRequested
  refine Tracks.lift _ fun l => ?_
  by_cases hl : l < request
  · rw [if_pos hl, if_pos hl]
    refine Tracks.lift _ fun d => ?_
    refine Tracks.lift _ fun b => ?_
    rw [M.bind_apply]
    refine Tracks.bind (Tracks.loop
      (gx := fun a : S × B × Nat => a.1) (gr := fun a : Except IoError Nat × S × B => a.2.1)
      (fx := fun a w => ((⟨a.1, w⟩ : Paired S σ), a.2.1, a.2.2))
      (fr := fun a w => (a.1, (⟨a.2.1, w⟩ : Paired S σ), a.2.2))
      (fillStep_tracks e chk request) (s.source, b, 0) w) ?_
    intro a w'
    exact .ok .done
  · rw [if_neg hl, if_neg hl]
    exact .ok .done

theorem fillSource_tracks [OneRead B I] (e : IoError) (chk : Bool) (s : Source S B) (w : σ) :
    Tracks (fun a => a.2.source) (fun a w => (a.1, pair a.2 w)) s.source w (Source.fillLive chk s w)
      (@Source.fill _ B I (paired e) _ chk (pair s w)) := by
  letI := paired (σ := σ) (S := S) e
  unfold Source.fillLive Source.fill
  dsimp only
  rw [M.bind_apply]
  refine Tracks.bind (fillRequested_tracks e chk _ s w) ?_
  intro a w'
  obtain ⟨r, s'⟩ := a
  cases r with
  | error e => exact .ok .done
  | ok n =>
    refine Tracks.lift _ fun l => ?_
    exact .ok .done

theorem read_tracks [OneRead B I] (e : IoError) (chk : Bool) (k : Nat) (s : Source S B) (w : σ) :
    Tracks (fun a => a.2.source) (fun a w => (a.1, pair a.2 w)) s.source w (Source.readLive chk k s w)
      (@Source.read _ B I (paired e) _ chk k (pair s w)) := by
  letI := paired (σ := σ) (S := S) e
  unfold Source.readLive Source.read
  dsimp only
  refine Tracks.lift _ fun l => ?_
  by_cases hk : k > l
  · rw [if_pos hk, if_pos hk, M.bind_apply]
    refine Tracks.bind (fillRequested_tracks e chk _ s w) ?_
    intro a w'
    obtain ⟨r, s'⟩ := a
    cases r with
    | error e => exact .ok .done
    | ok n =>
      refine Tracks.lift _ fun data => ?_
      refine Tracks.lift _ fun b => ?_
      exact .ok .done
  · rw [if_neg hk, if_neg hk, M.bind_ok (M.pure_apply _ _), Res.bind_ok]
    refine Tracks.lift _ fun data => ?_
    refine Tracks.lift _ fun b => ?_
    exact .ok .done

theorem fillBuf_tracks [OneRead B I] (e : IoError) (chk : Bool) (s : Source S B) (w : σ) :
    Tracks (fun a => a.2.source) (fun a w => (a.1, pair a.2 w)) s.source w (Source.fillBufLive chk s w)
      (@Source.fillBuf _ B I (paired e) _ chk (pair s w)) := by
  letI := paired (σ := σ) (S := S) e
  unfold Source.fillBufLive Source.fillBuf
  dsimp only
  rw [M.bind_apply]
  refine Tracks.bind (fillRequested_tracks e chk _ s w) ?_
  intro a w'
  obtain ⟨r, s'⟩ := a
  cases r with
  | error e => exact .ok .done
  | ok n =>
    refine Tracks.lift _ fun data => ?_
    exact .ok .done

theorem parse_eq (chk : Bool) (f : Parser σ I T E) (s : Source S B) (w : σ) :
    s.parseLive chk f w =
      autofill chk s w >>= fun x =>
        match x.1.1 with
        | .error e => .ok ((.error (.ioError e), x.1.2), x.2)
        | .ok _ => x.1.2.attempt chk f x.2 := by
  unfold Source.parseLive autofill
  split
  · rw [M.bind_apply]
    congr 1
    funext x
    obtain ⟨⟨r, s⟩, w⟩ := x
    cases r <;> rfl
  · rfl

theorem Tracks.of_ok {g : α → S} {f : α → σ → β} {s : S} {w : σ} {x : Res (α × σ)} {y : Res β}
    (t : Tracks g f s w x y) {a : α} {w' : σ} (h : x = .ok (a, w')) : y = .ok (f a w') := by
  subst h
  generalize hz : (Res.ok (a, w') : Res (α × σ)) = z at t
  cases t with
  | ok _ => cases hz; rfl
  | fails h1 => subst hz; exact (Fails.not_ok h1).elim
  | _ => cases hz

/-- What a computation does which tracks one returning or panicking. -/
theorem Tracks.cases {g : α → S} {f : α → σ → β} {s : S} {w : σ} {x : Res (α × σ)} {y : Res β}
    (t : Tracks g f s w x y) : Fails s w x ∨ (∃ a w', x = .ok (a, w')) ∨ Same x y := by
  cases t with
  | ok _ => exact .inr (.inl ⟨_, _, rfl⟩)
  | fails h => exact .inl h
  | panic => exact .inr (.inr .panic)
  | ub => exact .inr (.inr .ub)
  | div => exact .inr (.inr .div)

end Live

/-! ### Sources without effects -/

namespace Live

variable {σ S B I : Type} [DataSource S I] [Buffer B I] [LiveBuffer B I]

theorem fill_pure [OneRead B I] (chk : Bool) (s : S) (b : B) (w : σ) :
    @LiveBuffer.fill B I _ σ S (ofPure σ) chk s b w = (Buffer.fill chk s b >>= fun x => .ok (x, w)) := by
  letI : LiveSource σ S I := ofPure σ
  rcases OneRead.fill chk b with ⟨h1, h2⟩ | ⟨k, post, h1, h2⟩
  · rw [h1, h2]; rfl
  · rw [h1, h2]
    change (post (DataSource.read s k).1 >>= fun y => Res.ok ((y.1, (DataSource.read s k).2, y.2), w)) = _
    cases post (DataSource.read s k).1 <;> rfl

theorem fillStep_pure [OneRead B I] (chk : Bool) (request : Nat) (x : S × B × Nat) (w : σ) :
    @Source.fillStepLive σ S B I (ofPure σ) _ _ chk request x w =
      (Source.fillStep chk request x () >>= fun y => .ok (y.1, w)) := by
  letI : LiveSource σ S I := ofPure σ
  obtain ⟨s, b, k⟩ := x
  unfold Source.fillStepLive Source.fillStep
  dsimp only
  rw [M.lift_bind (σ := Unit), M.lift_bind (σ := σ)]
  cases Buffer.len chk b with
  | ok l =>
    dsimp only [Res.bind_ok]
    by_cases hl : l < request
    · rw [if_pos hl, if_pos hl, M.lift_bind (σ := Unit), M.bind_apply, fill_pure]
      cases Buffer.fill chk s b with
      | ok y =>
        obtain ⟨r, s', b'⟩ := y
        cases r with
        | error e => rfl
        | ok n =>
          cases n with
          | zero => rfl
          | succ n =>
            show (M.lift (uaddB chk k (n + 1)) >>= fun read => (pure (Sum.inl (s', b', read)) : M σ _)) w =
              ((M.lift (uaddB chk k (n + 1)) >>= fun read => (pure (Sum.inl (s', b', read)) : M Unit _)) () >>=
                fun y => .ok (y.1, w))
            cases uaddB chk k (n + 1) <;> rfl
      | _ => rfl
    · rw [if_neg hl, if_neg hl]
      rfl
  | _ => rfl

theorem fillRequested_pure [OneRead B I] (chk : Bool) (request : Nat) (s : Source S B) (w : σ) :
    @Source.fillRequestedLive σ S B I (ofPure σ) _ _ chk request s w =
      (Source.fillRequested chk request s >>= fun y => .ok (y, w)) := by
  letI : LiveSource σ S I := ofPure σ
  have key : ∀ x, loop (Source.fillStepLive chk request) x w =
      (loop (Source.fillStep (S := S) (B := B) chk request) x () >>= fun y => .ok (y.1, w)) := by
    intro x
    refine loop_sim (fun s1 w1 s2 _ => s1 = s2 ∧ w1 = w) (fun x y => x = (y >>= fun y => .ok (y.1, w))) rfl
      ?_ ⟨rfl, rfl⟩
    rintro s1 w1 s2 w2 ⟨rfl, rfl⟩
    have h := fillStep_pure chk request s1 w1
    match hs : Source.fillStep chk request s1 () with
    | .ok (.inl x', _) =>
      rw [hs] at h
      exact .inl ⟨x', w1, x', (), h, rfl, rfl, rfl⟩
    | .ok (.inr r, _) =>
      rw [hs] at h
      right
      rw [loop_apply, loop_apply, h, hs]; rfl
    | .panic =>
      rw [hs] at h
      right
      rw [loop_apply, loop_apply, h, hs]; rfl
    | .ub =>
      rw [hs] at h
      right
      rw [loop_apply, loop_apply, h, hs]; rfl
    | .div =>
      rw [hs] at h
      right
      rw [loop_apply, loop_apply, h, hs]; rfl
  unfold Source.fillRequestedLive Source.fillRequested
  rw [M.lift_bind (σ := σ)]
  cases Buffer.len chk s.buffer with
  | ok l =>
    dsimp only [Res.bind_ok]
    by_cases hl : l < request
    · rw [if_pos hl, if_pos hl, M.lift_bind (σ := σ)]
      cases usubB chk request l with
      | ok d =>
        dsimp only [Res.bind_ok]
        rw [M.lift_bind (σ := σ)]
        cases Buffer.requestSpace chk d s.buffer with
        | ok b =>
          dsimp only [Res.bind_ok]
          rw [M.bind_apply, key]
          cases loop (Source.fillStep (S := S) (B := B) chk request) (s.source, b, 0) () <;> rfl
        | _ => rfl
      | _ => rfl
    · rw [if_neg hl, if_neg hl]
      rfl
  | _ => rfl

theorem fillSource_pure [OneRead B I] (chk : Bool) (s : Source S B) (w : σ) :
    @Source.fillLive σ S B I (ofPure σ) _ _ chk s w = (s.fill chk >>= fun y => .ok (y, w)) := by
  letI : LiveSource σ S I := ofPure σ
  unfold Source.fillLive Source.fill
  dsimp only
  rw [M.bind_apply, fillRequested_pure]
  cases Source.fillRequested chk (max 1 s.request) s with
  | ok x =>
    obtain ⟨r, s'⟩ := x
    cases r with
    | error e => rfl
    | ok n =>
      dsimp only [Res.bind_ok]
      rw [M.lift_bind]
      cases Buffer.len chk s'.buffer <;> rfl
  | _ => rfl

theorem read_pure [OneRead B I] (chk : Bool) (k : Nat) (s : Source S B) (w : σ) :
    @Source.readLive σ S B I (ofPure σ) _ _ chk k s w = (s.read chk k >>= fun y => .ok (y, w)) := by
  letI : LiveSource σ S I := ofPure σ
  have key : ∀ s' : Source S B,
      (M.lift (Buffer.deref s'.buffer) >>= fun data =>
        M.lift (Buffer.consume chk (min k data.length) s'.buffer) >>= fun b =>
        (pure (Except.ok (data.take (min k data.length)), { s' with buffer := b }) :
          M σ (Except IoError (List I) × Source S B))) w =
      ((Buffer.deref s'.buffer >>= fun data =>
        Buffer.consume chk (min k data.length) s'.buffer >>= fun b =>
        Res.ok (Except.ok (data.take (min k data.length)), { s' with buffer := b })) >>= fun y =>
          (.ok (y, w) : Res ((Except IoError (List I) × Source S B) × σ))) := by
    intro s'
    rw [M.lift_bind]
    cases Buffer.deref s'.buffer with
    | ok data =>
      dsimp only [Res.bind_ok]
      rw [M.lift_bind]
      cases Buffer.consume chk (min k data.length) s'.buffer <;> rfl
    | _ => rfl
  unfold Source.readLive Source.read
  rw [M.lift_bind]
  cases Source.len chk s with
  | ok l =>
    dsimp only [Res.bind_ok]
    by_cases hk : k > l
    · rw [if_pos hk, if_pos hk, M.bind_apply, fillRequested_pure]
      cases Source.fillRequested chk k s with
      | ok x =>
        obtain ⟨r, s'⟩ := x
        cases r with
        | error e => rfl
        | ok n => exact key s'
      | _ => rfl
    · rw [if_neg hk, if_neg hk]
      exact key s
  | _ => rfl

theorem fillBuf_pure [OneRead B I] (chk : Bool) (s : Source S B) (w : σ) :
    @Source.fillBufLive σ S B I (ofPure σ) _ _ chk s w = (s.fillBuf chk >>= fun y => .ok (y, w)) := by
  letI : LiveSource σ S I := ofPure σ
  unfold Source.fillBufLive Source.fillBuf
  dsimp only
  rw [M.bind_apply, fillRequested_pure]
  cases Source.fillRequested chk (Buffer.capacity s.buffer) s with
  | ok x =>
    obtain ⟨r, s'⟩ := x
    cases r with
    | error e => rfl
    | ok n =>
      dsimp only [Res.bind_ok]
      rw [M.lift_bind]
      cases Buffer.deref s'.buffer <;> rfl
  | _ => rfl

theorem parse_pure [OneRead B I] (chk : Bool) (f : Parser σ I T E) (s : Source S B) (w : σ) :
    @Source.parseLive σ S B I (ofPure σ) _ _ T E chk f s w = s.parse chk f w := by
  letI : LiveSource σ S I := ofPure σ
  rw [parse_eq, Source.parse_eq]
  unfold autofill
  split
  · rw [fillSource_pure]
    cases Source.fill chk s <;> rfl
  · rfl

end Live

/-! ### Iterators and readers -/

namespace Live

variable {σ J I : Type}

theorem iterRead_spec [LiveIter σ J I] (k : Nat) (j : J) (w : σ) :
    ∃ xs j1 w1, Nexts j w xs j1 w1 ∧
      ((xs.length = k ∧ iterReadLive k j w = .ok ((xs, j1), w1)) ∨
       (xs.length < k ∧ ∃ j' w', LiveIter.next j1 w1 = .ok ((none, j'), w') ∧
          iterReadLive k j w = .ok ((xs, j'), w')) ∨
       (xs.length < k ∧ Same (LiveIter.next (I := I) j1 w1) (iterReadLive k j w))) := by
  induction k generalizing j w with
  | zero => exact ⟨[], j, w, .done, .inl ⟨rfl, rfl⟩⟩
  | succ k ih =>
    unfold iterReadLive
    cases hn : LiveIter.next j w with
    | ok x =>
      obtain ⟨⟨o, j1⟩, w1⟩ := x
      rw [M.bind_ok hn]
      cases o with
      | none =>
        exact ⟨[], j, w, .done, .inr (.inl ⟨Nat.succ_pos _, j1, w1, hn, rfl⟩)⟩
      | some x =>
        dsimp only
        obtain ⟨xs, j2, w2, h1, h2⟩ := ih j1 w1
        refine ⟨x :: xs, j2, w2, .step hn h1, ?_⟩
        rw [M.bind_apply]
        rcases h2 with ⟨h2, h3⟩ | ⟨h2, j', w', h3, h4⟩ | ⟨h2, h3⟩
        · left; rw [h3]; exact ⟨by simp [h2], rfl⟩
        · right; left; rw [h4]; exact ⟨by simp [h2], j', w', h3, rfl⟩
        · right; right
          refine ⟨by simp [h2], ?_⟩
          generalize iterReadLive k j1 w1 = z at h3
          generalize LiveIter.next j2 w2 = y at h3
          cases h3 <;> constructor
    | panic =>
      refine ⟨[], j, w, .done, .inr (.inr ⟨Nat.succ_pos _, ?_⟩)⟩
      rw [M.bind_apply, hn]; exact .panic
    | ub =>
      refine ⟨[], j, w, .done, .inr (.inr ⟨Nat.succ_pos _, ?_⟩)⟩
      rw [M.bind_apply, hn]; exact .ub
    | div =>
      refine ⟨[], j, w, .done, .inr (.inr ⟨Nat.succ_pos _, ?_⟩)⟩
      rw [M.bind_apply, hn]; exact .div

theorem items_map_some (xs : List I) (r : Except IoError Nat) (h : r = .ok xs.length) :
    (⟨xs.map some, r⟩ : ReadOut I).items = xs := by
  subst h
  simp only [ReadOut.items]
  rw [List.take_of_length_le (by simp), List.filterMap_map]
  exact List.filterMap_some

end Live

/-! ### Evaluation of concrete cases -/

namespace Live

variable {σ S B I : Type} [LiveSource σ S I] [Buffer B I] [LiveBuffer B I]

theorem fill_eval {chk : Bool} {l d n l' : Nat} {s : Source S B} {b b' : B} {w w' : σ} {src : S}
    (hl : Buffer.len chk s.buffer = .ok l) (hlt : l < max 1 s.request)
    (hd : usubB chk (max 1 s.request) l = .ok d) (hb : Buffer.requestSpace chk d s.buffer = .ok b)
    (hx : loop (Source.fillStepLive chk (max 1 s.request)) (s.source, b, 0) w = .ok ((.ok n, src, b'), w'))
    (hl' : Buffer.len chk b' = .ok l') :
    s.fillLive chk w = .ok ((.ok n, { s with
      source := src, buffer := b', state :=
      { s.state with incomplete := false, endOfInput := !decide (l' ≥ max 1 s.request) } }), w') := by
  unfold Source.fillLive Source.fillRequestedLive
  dsimp only
  rw [M.bind_apply, hl, M.bind_ok (M.lift_ok _ _), if_pos hlt, hd, M.bind_ok (M.lift_ok _ _), hb,
    M.bind_ok (M.lift_ok _ _), M.bind_ok hx, M.pure_apply, Res.bind_ok]
  dsimp only
  rw [hl', M.bind_ok (M.lift_ok _ _)]
  rfl

theorem fill_eval_panic {chk : Bool} {l d : Nat} {s : Source S B} {b : B} {w : σ}
    (hl : Buffer.len chk s.buffer = .ok l) (hlt : l < max 1 s.request)
    (hd : usubB chk (max 1 s.request) l = .ok d) (hb : Buffer.requestSpace chk d s.buffer = .ok b)
    (hx : loop (Source.fillStepLive chk (max 1 s.request)) (s.source, b, 0) w = .panic) :
    s.fillLive chk w = .panic := by
  unfold Source.fillLive Source.fillRequestedLive
  dsimp only
  rw [M.bind_apply, hl, M.bind_ok (M.lift_ok _ _), if_pos hlt, hd, M.bind_ok (M.lift_ok _ _), hb,
    M.bind_ok (M.lift_ok _ _), M.bind_apply, hx]
  rfl

theorem parse_eval {chk : Bool} {f : Parser σ I T E} {s s1 : Source S B} {w w1 : σ} {n : Nat}
    {x : Res ((Except (StreamError I E) T × Source S B) × σ)}
    (h : autofill chk s w = .ok ((.ok n, s1), w1)) (hx : s1.attempt chk f w1 = x) : s.parseLive chk f w = x := by
  rw [parse_eq, h]
  exact hx

end Live

end Chomp
