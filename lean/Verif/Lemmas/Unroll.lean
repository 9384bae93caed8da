import Verif.Lemmas.SepBy
import Verif.Lemmas.Till

/-
One turn of the repetition loops, as an equation between parsers.
-/

namespace Chomp

open Spec

namespace Unroll

/-- Change the value of a result. -/
def mapR (f : T → T') : ParseResult I T E → ParseResult I T' E
  | .data i t => .data i (f t)
  | .error b e => .error b e
  | .incomplete n => .incomplete n

theorem map_apply (p : Parser σ I T E) (f : T → T') (i : Input I) (w : σ) :
    Parser.map p f i w = (p i w).mapVal (mapR f) := by
  unfold Parser.map
  rw [M.bind_apply]
  cases p i w with
  | ok x => obtain ⟨x, w'⟩ := x; cases x <;> rfl
  | _ => rfl

theorem mapR_final (f : T → T') (t : T) (s : Input I) (lo : Nat) (hi : Option Nat) (n : Nat) :
    mapR f (Rep.final (E := E) t s lo hi n) = Rep.final (f t) s lo hi n := by
  unfold Rep.final
  split <;> rfl

/-- Two collections which never stop, one of which determines the other. -/
theorem loop_hom {c : Collect U T} {c' : Collect U T'} (rel : c.Acc → c'.Acc → Prop) (f : T → T')
    (hfeed : ∀ a a' u, rel a a' → ∃ b b', c.feed a u = .inl b ∧ c'.feed a' u = .inl b' ∧ rel b b')
    (hfin : ∀ a a', rel a a' → c'.finish a' = f (c.finish a))
    (p : Parser σ I U E) {a : c.Acc} {a' : c'.Acc} (h : rel a a') (i : Input I) (lo : Nat)
    (hi : Option Nat) (w : σ) :
    loop (Rep.step c' p) (a', i, lo, hi) w = (loop (Rep.step c p) (a, i, lo, hi) w).mapVal (mapR f) := by
  refine loop_sim
    (R := fun (s1 : c'.Acc × Input I × Nat × Option Nat) w1 (s2 : c.Acc × Input I × Nat × Option Nat) w2 =>
      w1 = w2 ∧ rel s2.1 s1.1 ∧ s1.2 = s2.2)
    (Q := fun r1 r2 => r1 = r2.mapVal (mapR f)) rfl ?_ ⟨rfl, h, rfl⟩
  rintro ⟨a', s⟩ w ⟨a, i, lo, hi⟩ _ ⟨rfl, h, rfl⟩
  dsimp only at h
  by_cases h0 : hi = some 0
  · right
    rw [loop_apply, loop_apply]
    simp [Rep.step, h0, Res.mapVal, mapR_final, hfin _ _ h]
  · cases hp : p i w with
    | ok x =>
      obtain ⟨x, w1⟩ := x
      cases x with
      | data b' v =>
        obtain ⟨d, d', e1, e2, h'⟩ := hfeed _ _ v h
        left
        exact ⟨(d', b', lo - 1, hi.map (· - 1)), w1, (d, b', lo - 1, hi.map (· - 1)), w1,
          by simp [Rep.step, h0, hp, e2], by simp [Rep.step, h0, hp, e1], rfl, h', rfl⟩
      | error b' e =>
        right
        rw [loop_apply, loop_apply]
        by_cases hl : lo = 0 <;> simp [Rep.step, h0, hp, hl, Res.mapVal, mapR, hfin _ _ h]
      | incomplete n =>
        right
        rw [loop_apply, loop_apply]
        simp [Rep.step, h0, hp, Res.mapVal, mapR_final, hfin _ _ h]
    | _ =>
      right
      rw [loop_apply, loop_apply]
      simp [Rep.step, h0, hp, Res.mapVal]

/-- The accumulator is put in front of what is collected later. -/
theorem loop_acc (p : Parser σ I U E) (u : U) (i : Input I) (lo : Nat) (hi : Option Nat) (w : σ) :
    loop (Rep.step (Collect.vec U) p) ([u], i, lo, hi) w =
      (Rep.core (Collect.vec U) p lo hi i w).mapVal (mapR (u :: ·)) :=
  loop_hom (c := Collect.vec U) (c' := Collect.vec U)
    (fun (a a' : List U) => a' = a ++ [u]) (u :: ·)
    (by rintro a _ v rfl; exact ⟨_, _, rfl, rfl, rfl⟩)
    (by rintro (a : List U) _ rfl; show (a ++ [u]).reverse = u :: a.reverse; simp) p (a := ([] : List U)) rfl i lo hi w

/-- Skipping is collecting and dropping. -/
theorem core_unit (p : Parser σ I U E) (lo : Nat) (hi : Option Nat) :
    Rep.core (Rep.unit U) p lo hi = Parser.map (Rep.core (Collect.vec U) p lo hi) fun _ => () := by
  funext i w
  rw [map_apply]
  exact loop_hom (c := Collect.vec U) (c' := Rep.unit U) (fun _ _ => True) (fun _ => ())
    (fun a a' u _ => ⟨_, _, rfl, rfl, trivial⟩) (fun _ _ _ => rfl) p trivial i lo hi w

theorem core_unroll (p : Parser σ I U E) (lo : Nat) (hi : Option Nat) (h0 : hi ≠ some 0)
    (i : Input I) (w : σ) :
    Rep.core (Collect.vec U) p lo hi i w = p i w >>= fun r =>
      match r.1 with
      | .data b v => (Rep.core (Collect.vec U) p (lo - 1) (hi.map (· - 1)) b r.2).mapVal (mapR (v :: ·))
      | .error b e => .ok (if lo = 0 then .data i [] else .error b e, r.2)
      | .incomplete n => .ok (Rep.final [] i lo hi n, r.2) := by
  show loop (Rep.step (Collect.vec U) p) ([], i, lo, hi) w = _
  rw [loop_apply]
  cases hp : p i w with
  | ok x =>
    obtain ⟨x, w1⟩ := x
    cases x with
    | data b v =>
      simp only [Rep.step, h0, if_false, hp, Res.bind_ok, Collect.vec]
      exact loop_acc p v b (lo - 1) (hi.map (· - 1)) w1
    | error b e => simp [Rep.step, h0, hp, Collect.vec]
    | incomplete n => simp [Rep.step, h0, hp, Collect.vec]
  | _ => simp [Rep.step, h0, hp]

theorem core_zero (p : Parser σ I U E) (lo : Nat) (i : Input I) (w : σ) :
    Rep.core (Collect.vec U) p lo (some 0) i w =
      .ok (Rep.final [] i lo (some 0) 1, w) := by
  show loop (Rep.step (Collect.vec U) p) ([], i, lo, some 0) w = _
  rw [loop_apply]
  simp [Rep.step, Collect.vec]

/-- Nothing but its error is lost if a parser needing items has one. -/
theorem core_error {p : Parser σ I U E} {hi i w b e w'} :
    Rep.core (Collect.vec U) p 0 hi i w ≠ .ok (.error b e, w') := by
  intro h
  cases (Rep.core_vec_iff (by intro m _; exact Nat.zero_le m) (by simp)).mp h with
  | error _ _ _ h => simp at h

/-- The number which is needed after the first one. -/
theorem core_succ (p : Parser σ I U E) (lo : Nat) (hi : Option Nat) (h0 : hi ≠ some 0) :
    Rep.core (Collect.vec U) p (lo + 1) hi =
      Parser.bind id p fun v =>
        Parser.map (Rep.core (Collect.vec U) p lo (hi.map (· - 1))) (v :: ·) := by
  funext i w
  rw [core_unroll p _ _ h0]
  unfold Parser.bind
  rw [M.bind_apply]
  cases hp : p i w with
  | ok x =>
    obtain ⟨x, w1⟩ := x
    cases x with
    | data b v =>
      simp only [Res.bind_ok, Nat.add_sub_cancel, ParseResult.bind_data]
      rw [map_apply]
    | error b e => simp [ParseResult.bind]
    | incomplete n => simp [ParseResult.bind, Rep.final]
  | _ => rfl

theorem mode_reps {p : Parser σ I U E}
    (hp : ∀ i w i' u w', p i w = .ok (.data i' u, w') → i'.mode = i.mode) {i w us i' w'}
    (h : Reps p i w us i' w') : i'.mode = i.mode := by
  induction h with
  | nil => rfl
  | cons h1 _ ih => exact ih.trans (hp _ _ _ _ _ h1)

theorem core_last {p : Parser σ I U E}
    (hp : ∀ i w i' u w', p i w = .ok (.data i' u, w') → i'.mode = i.mode) {hi i w n w'}
    (hm : i.mode = .endOfInput) :
    Rep.core (Collect.vec U) p 0 hi i w ≠ .ok (.incomplete n, w') := by
  intro h
  cases (Rep.core_vec_iff (by intro m _; exact Nat.zero_le m) (by simp)).mp h with
  | incomplete hr _ _ h =>
    have := mode_reps hp hr
    rcases h with h | h
    · simp at h
    · rw [this, hm] at h; cases h

/-- No item is needed. -/
theorem core_or (p : Parser σ I U E)
    (hp : ∀ i w i' u w', p i w = .ok (.data i' u, w') → i'.mode = i.mode)
    (hi : Option Nat) (h0 : hi ≠ some 0) :
    Rep.core (Collect.vec U) p 0 hi =
      Comb.or (Parser.bind id p fun v =>
        Parser.map (Rep.core (Collect.vec U) p 0 (hi.map (· - 1))) (v :: ·)) (Parser.ret []) := by
  funext i w
  rw [core_unroll p _ _ h0]
  unfold Comb.or Parser.bind
  rw [M.bind_apply, M.bind_apply]
  cases hr : p i w with
  | ok x =>
    obtain ⟨x, w1⟩ := x
    cases x with
    | data b v =>
      have hm := hp _ _ _ _ _ hr
      simp only [Res.bind_ok, ParseResult.bind_data]
      rw [map_apply]
      cases hc : Rep.core (Collect.vec U) p 0 (hi.map (· - 1)) b w1 with
      | ok y =>
        obtain ⟨y, w2⟩ := y
        cases y with
        | data b' vs => simp [Res.mapVal, mapR, Input.ret]
        | error b' e => exact absurd hc core_error
        | incomplete n =>
          cases hi' : i.mode with
          | default => simp [Res.mapVal, mapR, Input.isLastSlice, hi', Input.incomplete]
          | endOfInput => exact absurd hc (core_last hp (hm.trans hi'))
      | _ => simp [Res.mapVal]
    | error b e => simp [ParseResult.bind, Parser.ret, Input.ret]
    | incomplete n =>
      obtain ⟨m, b⟩ := i
      cases m <;> simp [ParseResult.bind, Rep.final, h0, Input.isLastSlice, Parser.ret, Input.ret, Input.incomplete]
  | _ => rfl

/-! ### Separators -/

theorem sepThen_eq (conv : N → E) (p : Parser σ I U E) (sep : Parser σ I V N) :
    sepThen conv p sep = Parser.andThen conv sep p := by
  funext i w
  unfold sepThen Parser.andThen
  rw [M.bind_apply]
  cases sep i w with
  | ok x => obtain ⟨x, w1⟩ := x; cases x <;> simp [ParseResult.andThen, ParseResult.bind]
  | _ => rfl

/-- After the first item the flag stays set. -/
theorem core_true (conv : N → E) (p : Parser σ I U E) (sep : Parser σ I V N) (lo : Nat)
    (hi : Option Nat) (i : Input I) (w : σ) :
    Sep.unflag (Rep.core (Collect.vec U) (Comb.sepParser conv p sep) lo hi i (w, true)) =
      Rep.core (Collect.vec U) (Parser.andThen conv sep p) lo hi i w := by
  rw [← sepThen_eq]
  refine loop_sim
    (f := Rep.step (Collect.vec U) (Comb.sepParser conv p sep))
    (g := Rep.step (Collect.vec U) (sepThen conv p sep))
    (R := fun s1 w1 s2 w2 => s1 = s2 ∧ w1 = (w2, true))
    (Q := fun r1 r2 => Sep.unflag r1 = r2) rfl ?_ ⟨rfl, rfl⟩
  rintro ⟨a, i, lo, hi⟩ _ _ w ⟨rfl, rfl⟩
  by_cases h0 : hi = some 0
  · right
    rw [loop_apply, loop_apply]
    simp [Rep.step, h0, Sep.unflag]
  · cases hp : sepThen conv p sep i w with
    | ok x =>
      obtain ⟨x, w1⟩ := x
      cases x with
      | data b' v =>
        left
        exact ⟨_, (w1, true), _, w1, by simp [Rep.step, h0, Sep.sepParser_eq, hp, Sep.flag, Collect.vec]; rfl,
          by simp [Rep.step, h0, hp, Collect.vec], rfl, rfl⟩
      | error b' e =>
        right
        rw [loop_apply, loop_apply]
        simp [Rep.step, h0, Sep.sepParser_eq, hp, Sep.flag, Sep.unflag]
      | incomplete n =>
        right
        rw [loop_apply, loop_apply]
        simp [Rep.step, h0, Sep.sepParser_eq, hp, Sep.flag, Sep.unflag]
    | _ =>
      right
      rw [loop_apply, loop_apply]
      simp [Rep.step, h0, Sep.sepParser_eq, hp, Sep.flag, Sep.unflag]

theorem unflag_mapVal (f : α → β) (r : Res (α × (σ × Bool))) :
    Sep.unflag (r.mapVal f) = (Sep.unflag r).mapVal f := by
  cases r <;> rfl

/-- The first item, and what follows it. -/
theorem sep_unroll (conv : N → E) (p : Parser σ I U E) (sep : Parser σ I V N) (lo : Nat)
    (i : Input I) (w : σ) :
    Sep.unflag (Rep.core (Collect.vec U) (Comb.sepParser conv p sep) lo none i (w, false)) =
      p i w >>= fun r =>
      match r.1 with
      | .data b v => (Rep.core (Collect.vec U) (Parser.andThen conv sep p) (lo - 1) none b r.2).mapVal
          (mapR (v :: ·))
      | .error b e => .ok (if lo = 0 then .data i [] else .error b e, r.2)
      | .incomplete n => .ok (Rep.final [] i lo none n, r.2) := by
  rw [core_unroll _ _ _ (by simp), Sep.sepParser_eq, if_neg (by simp)]
  cases hp : p i w with
  | ok x =>
    obtain ⟨x, w1⟩ := x
    cases x with
    | data b v =>
      simp only [Sep.flag, Res.bind_ok]
      rw [unflag_mapVal]
      exact congrArg _ (core_true conv p sep (lo - 1) none b w1)
    | error b e => rfl
    | incomplete n => rfl
  | _ => rfl

theorem drop_bind (p : Parser σ I U E) (q : Parser σ I (List U) E) :
    Parser.map (Parser.bind id p fun v => Parser.map q (v :: ·)) (fun _ => ()) =
        Parser.andThen id p (Parser.map q fun _ => ()) := by
  funext i w
  rw [map_apply]
  unfold Parser.bind Parser.andThen
  rw [M.bind_apply, M.bind_apply]
  cases hr : p i w with
  | ok x =>
    obtain ⟨x, w1⟩ := x
    cases x with
    | data b v =>
      simp only [Res.bind_ok, ParseResult.bind_data, ParseResult.andThen]
      rw [map_apply, map_apply]
      cases q b w1 with
      | ok y => obtain ⟨y, w2⟩ := y; cases y <;> rfl
      | _ => rfl
    | _ => rfl
  | _ => rfl

theorem drop_or (q : Parser σ I (List U) E) :
    Parser.map (Comb.or q (Parser.ret [])) (fun _ => ()) =
        Comb.or (Parser.map q fun _ => ()) (Parser.ret ()) := by
  funext i w
  rw [map_apply]
  unfold Comb.or
  rw [M.bind_apply, M.bind_apply, map_apply]
  cases q i w with
  | ok x =>
    obtain ⟨x, w1⟩ := x
    cases x with
    | data b v => rfl
    | error b e => rfl
    | incomplete n => obtain ⟨m, b⟩ := i; cases m <;> rfl
  | _ => rfl

/-! ### `many_till` -/

theorem till_acc (p : Parser σ I U E) (end_ : Parser σ I V N) (last : Nat)
    (good : Nat → Option Nat → Bool) (u : U) (i : Input I) (lo : Nat) (hi : Option Nat) (w : σ) :
    loop (Till.step (Collect.vec U) p end_ last good) ([u], i, lo, hi) w =
      (Till.core (Collect.vec U) p end_ last good lo hi i w).mapVal (mapR (u :: ·)) := by
  refine loop_sim
    (f := Till.step (Collect.vec U) p end_ last good)
    (g := Till.step (Collect.vec U) p end_ last good) (s2 := (([] : List U), i, lo, hi))
    (R := fun (s1 : (Collect.vec U).Acc × Input I × Nat × Option Nat) w1 s2 w2 =>
      w1 = w2 ∧ s1.1 = @HAppend.hAppend (List U) (List U) (List U) _ s2.1 [u] ∧ s1.2 = s2.2)
    (Q := fun r1 r2 => r1 = r2.mapVal (mapR (u :: ·))) rfl ?_ ⟨rfl, rfl, rfl⟩
  rintro ⟨a', s⟩ w ⟨(a : List U), i, lo, hi⟩ _ ⟨rfl, h, rfl⟩
  dsimp only at h
  subst h
  cases ht : Till.test end_ (Till.triesAt last lo hi) i w with
  | ok x =>
    obtain ⟨x, w1⟩ := x
    cases x with
    | some b =>
      right
      rw [loop_apply, loop_apply]
      cases hg : good lo hi <;>
        simp [Till.step, ht, hg, Res.mapVal, mapR, Collect.vec]
    | none =>
      by_cases h0 : hi = some 0
      · right
        rw [loop_apply, loop_apply]
        simp only [Till.step, h0, if_true]
        rw [h0] at ht
        simp [ht, Res.mapVal, mapR]
      · cases hp : p i w1 with
        | ok y =>
          obtain ⟨y, w2⟩ := y
          cases y with
          | data b' v =>
            left
            exact ⟨(v :: (a ++ [u]), b', lo - 1, hi.map (· - 1)), w2,
              (v :: a, b', lo - 1, hi.map (· - 1)), w2,
              by simp [Till.step, ht, h0, hp, Collect.vec], by simp [Till.step, ht, h0, hp, Collect.vec],
              rfl, rfl, rfl⟩
          | error b' e =>
            right
            rw [loop_apply, loop_apply]
            simp [Till.step, ht, h0, hp, Res.mapVal, mapR]
          | incomplete n =>
            right
            rw [loop_apply, loop_apply]
            simp [Till.step, ht, h0, hp, Res.mapVal, mapR]
        | _ =>
          right
          rw [loop_apply, loop_apply]
          simp [Till.step, ht, h0, hp, Res.mapVal]
  | _ =>
    right
    rw [loop_apply, loop_apply]
    simp [Till.step, ht, Res.mapVal]

/-- Before the minimum `end_` is not tried. -/
theorem till_succ (p : Parser σ I U E) (end_ : Parser σ I V N) (last : Nat) (good : Nat → Option Nat → Bool)
    (lo : Nat) (hi : Option Nat) (h0 : hi ≠ some 0) :
    Till.core (Collect.vec U) p end_ last good (lo + 1) hi =
      Parser.bind id p fun v =>
        Parser.map (Till.core (Collect.vec U) p end_ last good lo (hi.map (· - 1))) (v :: ·) := by
  funext i w
  show loop (Till.step (Collect.vec U) p end_ last good) (([] : List U), i, lo + 1, hi) w = _
  have ht : Till.test end_ (Till.triesAt last (lo + 1) hi) i w = .ok (none, w) := by
    have : Till.triesAt last (lo + 1) hi = 0 := by simp [Till.triesAt, h0]
    rw [this]
    rfl
  rw [loop_apply]
  unfold Parser.bind
  rw [M.bind_apply]
  simp only [Till.step, ht, Res.bind_ok, if_neg h0]
  cases hp : p i w with
  | ok y =>
    obtain ⟨y, w1⟩ := y
    cases y with
    | data b v =>
      simp only [Res.bind_ok, Collect.vec, ParseResult.bind_data, map_apply]
      exact till_acc p end_ last good v b lo _ w1
    | _ => rfl
  | _ => rfl

/-- At the minimum, below the maximum. -/
theorem till_zero (p : Parser σ I U E) (end_ : Parser σ I V N) (last : Nat) (good : Nat → Option Nat → Bool)
    (hi : Option Nat) (h0 : hi ≠ some 0) (hg : good 0 hi = true) (i : Input I) (w : σ) :
    Till.core (Collect.vec U) p end_ last good 0 hi i w = end_ i w >>= fun r =>
      match r.1 with
      | .data b _ => .ok (.data b [], r.2)
      | _ => Parser.bind id p
          (fun v => Parser.map (Till.core (Collect.vec U) p end_ last good 0 (hi.map (· - 1))) (v :: ·)) i r.2 := by
  show loop (Till.step (Collect.vec U) p end_ last good) (([] : List U), i, 0, hi) w = _
  have ht := Till.test_one end_ i w
  rw [← show Till.triesAt last 0 hi = 1 by simp [Till.triesAt, h0]] at ht
  have second : ∀ w1, Parser.bind id p (fun v => Parser.map
        (Till.core (Collect.vec U) p end_ last good 0 (hi.map (· - 1))) (v :: ·)) i w1 =
      ((p i w1 >>= fun r =>
        match r.1 with
        | .data b v => .ok (Sum.inl (([v] : List U), b, 0, hi.map (· - 1)), r.2)
        | .error b e => .ok (.inr (.error b e), r.2)
        | .incomplete n => .ok (.inr (.incomplete n), r.2)) >>= fun q => match q.1 with
          | .inl s => loop (Till.step (Collect.vec U) p end_ last good) s q.2
          | .inr r => .ok (r, q.2)) := by
    intro w1
    unfold Parser.bind
    rw [M.bind_apply]
    cases hp : p i w1 with
    | ok y =>
      obtain ⟨y, w2⟩ := y
      cases y with
      | data b v =>
        simp only [Res.bind_ok, ParseResult.bind_data, map_apply]
        rw [← till_acc]
        rfl
      | _ => rfl
    | _ => rfl
  rw [loop_apply]
  cases he : end_ i w with
  | ok x =>
    obtain ⟨x, w1⟩ := x
    cases x with
    | data b v => simp [Till.step, ht, he, hg, Collect.vec]
    | error b e =>
      simp only [Res.bind_ok]
      rw [second]
      simp only [Till.step, ht, he, Res.bind_ok, if_neg h0]
      cases hp : p i w1 with
      | ok y => obtain ⟨y, w2⟩ := y; cases y <;> simp [Collect.vec]
      | _ => simp
    | incomplete n =>
      simp only [Res.bind_ok]
      rw [second]
      simp only [Till.step, ht, he, Res.bind_ok, if_neg h0]
      cases hp : p i w1 with
      | ok y => obtain ⟨y, w2⟩ := y; cases y <;> simp [Collect.vec]
      | _ => simp
  | _ => simp [Till.step, ht, he]

/-- At the maximum. -/
theorem till_limit (p : Parser σ I U E) (end_ : Parser σ I V N) (last : Nat) (good : Nat → Option Nat → Bool)
    (hg : good 0 (some 0) = true) (i : Input I) (w : σ) :
    Till.core (Collect.vec U) p end_ last good 0 (some 0) i w = Till.test end_ last i w >>= fun x =>
      match x.1 with
      | some b => .ok (.data b [], x.2)
      | none => .ok (.incomplete 1, x.2) := by
  show loop (Till.step (Collect.vec U) p end_ last good) (([] : List U), i, 0, some 0) w = _
  have ht : Till.triesAt last 0 (some 0) = last := rfl
  rw [loop_apply]
  simp only [Till.step, ht]
  cases Till.test end_ last i w with
  | ok x =>
    obtain ⟨x, w1⟩ := x
    cases x <;> simp [hg, Collect.vec]
  | _ => rfl

theorem till_unroll (p : Parser σ I U E) (end_ : Parser σ I V N) (i : Input I) (w : σ) :
    Comb.manyTill (Collect.vec U) p end_ i w = end_ i w >>= fun r =>
      match r.1 with
      | .data b _ => .ok (.data b [], r.2)
      | _ => p i r.2 >>= fun r => match r.1 with
        | .data b v => (Comb.manyTill (Collect.vec U) p end_ b r.2).mapVal (mapR (v :: ·))
        | .error b e => .ok (.error b e, r.2)
        | .incomplete n => .ok (.incomplete n, r.2) := by
  have hm : ∀ i w, Comb.manyTill (Collect.vec U) p end_ i w =
      Till.core (Collect.vec U) p end_ 1 (Till.good .full) 0 none i w := by
    intro i w
    unfold Comb.manyTill
    rw [Till.manyTill_eq (by exact True.intro)]
    rfl
  rw [hm]
  show loop (Till.step (Collect.vec U) p end_ 1 (Till.good .full)) (([] : List U), i, 0, none) w = _
  have ht : Till.test end_ (Till.triesAt 1 0 none) i w = _ := Till.test_one end_ i w
  have hg : Till.good .full 0 none = true := rfl
  have second : ∀ w1, (p i w1 >>= fun r => match r.1 with
        | .data b v => (Comb.manyTill (Collect.vec U) p end_ b r.2).mapVal (mapR (v :: ·))
        | .error b e => .ok (.error b e, r.2)
        | .incomplete n => .ok (.incomplete n, r.2)) =
      ((p i w1 >>= fun r =>
        match r.1 with
        | .data b v => .ok (Sum.inl (([v] : List U), b, 0, none), r.2)
        | .error b e => .ok (.inr (.error b e), r.2)
        | .incomplete n => .ok (.inr (.incomplete n), r.2)) >>= fun q => match q.1 with
          | .inl s => loop (Till.step (Collect.vec U) p end_ 1 (Till.good .full)) s q.2
          | .inr r => .ok (r, q.2)) := by
    intro w1
    cases hp : p i w1 with
    | ok y =>
      obtain ⟨y, w2⟩ := y
      cases y with
      | data b v =>
        simp only [Res.bind_ok]
        rw [hm, ← till_acc]
        rfl
      | _ => rfl
    | _ => rfl
  rw [loop_apply]
  cases he : end_ i w with
  | ok x =>
    obtain ⟨x, w1⟩ := x
    cases x with
    | data b v => simp [Till.step, ht, he, hg, Collect.vec]
    | error b e =>
      simp only [Res.bind_ok]
      rw [second]
      simp only [Till.step, ht, he, Res.bind_ok]
      cases hp : p i w1 with
      | ok y => obtain ⟨y, w2⟩ := y; cases y <;> simp [Collect.vec]
      | _ => simp
    | incomplete n =>
      simp only [Res.bind_ok]
      rw [second]
      simp only [Till.step, ht, he, Res.bind_ok]
      cases hp : p i w1 with
      | ok y => obtain ⟨y, w2⟩ := y; cases y <;> simp [Collect.vec]
      | _ => simp
  | _ => simp [Till.step, ht, he]

theorem till_bind (p : Parser σ I U E) (end_ : Parser σ I V N) (i : Input I) (w : σ) :
    Comb.manyTill (Collect.vec U) p end_ i w = end_ i w >>= fun r =>
      match r.1 with
      | .data b _ => .ok (.data b [], r.2)
      | _ => Parser.bind id p
          (fun v => Parser.map (Comb.manyTill (Collect.vec U) p end_) (v :: ·)) i r.2 := by
  rw [till_unroll]
  cases end_ i w with
  | ok x =>
    obtain ⟨x, w1⟩ := x
    cases x with
    | data b v => rfl
    | _ =>
      simp only [Res.bind_ok]
      unfold Parser.bind
      rw [M.bind_apply]
      cases p i w1 with
      | ok y =>
        obtain ⟨y, w2⟩ := y
        cases y with
        | data b v =>
          simp only [Res.bind_ok, ParseResult.bind_data]
          rw [map_apply]
        | _ => rfl
      | _ => rfl
  | _ => rfl

end Unroll

end Chomp
