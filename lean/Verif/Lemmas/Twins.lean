import Verif.Lemmas.Repeat
import Verif.Spec.Twins

/-
A relational reading of the monad, and what it says about the loops of the library.
-/

namespace Chomp.Twins

variable {pos : Bool}

open Spec

/-- `Both` for every initial state. -/
def BothM (R : A → B → Prop) (x : M σ A) (y : M σ B) : Prop := ∀ w, Both R (x w) (y w)

theorem BothM.pure {R : A → B → Prop} {a : A} {b : B} (h : R a b) :
    BothM (σ := σ) R (pure a) (pure b) := fun w => .ok a b w h

theorem BothM.panic {R : A → B → Prop} : BothM (σ := σ) R M.panic M.panic := fun _ => .panic

theorem BothM.bind {R : A → B → Prop} {S : C → D → Prop} {x : M σ A} {y : M σ B} {f : A → M σ C}
    {g : B → M σ D} (h : BothM R x y) (hf : ∀ a b, R a b → BothM S (f a) (g b)) :
    BothM S (x >>= f) (y >>= g) := by
  intro w
  rw [M.bind_apply, M.bind_apply]
  have := h w
  revert this
  generalize x w = u
  generalize y w = v
  intro this
  cases this with
  | ok a b w' hr => exact hf a b hr w'
  | panic => exact .panic
  | ub => exact .ub
  | div => exact .div

theorem BothM.refl (x : M σ A) : BothM Eq x x := by
  intro w
  cases x w with
  | ok r => exact .ok r.1 r.1 r.2 rfl
  | panic => exact .panic
  | ub => exact .ub
  | div => exact .div

/-- The same computation first. -/
theorem BothM.seq {S : C → D → Prop} (x : M σ A) {f : A → M σ C} {g : A → M σ D}
    (hf : ∀ a, BothM S (f a) (g a)) : BothM S (x >>= f) (x >>= g) :=
  (BothM.refl x).bind fun a _ e => e ▸ hf a

/-- Steps of a loop. -/
inductive Step (R : S → S' → Prop) (Q : A → B → Prop) : S ⊕ A → S' ⊕ B → Prop
  | inl {s s'} : R s s' → Step R Q (.inl s) (.inl s')
  | inr {a b} : Q a b → Step R Q (.inr a) (.inr b)

theorem BothM.loop {R : S → S' → Prop} {Q : A → B → Prop} {f : S → M σ (S ⊕ A)}
    {g : S' → M σ (S' ⊕ B)} (hstep : ∀ s s', R s s' → BothM (Step R Q) (f s) (g s')) {s s'}
    (h : R s s') : BothM Q (loop f s) (loop g s') := by
  intro w
  refine loop_sim (R := fun s w s' w' => R s s' ∧ w = w') (Q := Both Q) .div ?_ ⟨h, rfl⟩
  rintro s w s' _ ⟨h, rfl⟩
  rw [loop_apply, loop_apply]
  have := hstep s s' h w
  revert this
  generalize f s w = u
  generalize g s' w = v
  intro this
  cases this with
  | ok a b w' hr =>
    cases hr with
    | inl h => exact .inl ⟨_, _, _, _, rfl, rfl, h, rfl⟩
    | inr h => exact .inr (.ok _ _ _ h)
  | panic => exact .inr .panic
  | ub => exact .inr .ub
  | div => exact .inr .div

/-- A loop over the same states. -/
theorem BothM.loop_eq {Q : A → B → Prop} {f : S → M σ (S ⊕ A)} {g : S → M σ (S ⊕ B)}
    (hstep : ∀ s, BothM (Step Eq Q) (f s) (g s)) (s) : BothM Q (Chomp.loop f s) (Chomp.loop g s) :=
  BothM.loop (R := Eq) (fun s _ e => e ▸ hstep s) rfl

/-! ### Collections cannot tell the iterators apart -/

/-- Results of `next`. -/
def NextRel (R : It → It' → Prop) (x : Option U × It) (y : Option U × It') : Prop :=
  x.1 = y.1 ∧ R x.2 y.2

/-- The collection treats related iterators alike. -/
def Uniform (k : Driver σ U T) : Prop :=
  ∀ (It It' : Type) (R : It → It' → Prop) (next : It → M σ (Option U × It))
    (next' : It' → M σ (Option U × It')) (hint : It → Nat × Option Nat)
    (hint' : It' → Nat × Option Nat),
    (∀ s s', R s s' → BothM (NextRel R) (next s) (next' s')) →
    (∀ s s', R s s' → hint s = hint' s') →
    ∀ s s', R s s' → BothM (fun x y => x.1 = y.1 ∧ R x.2 y.2) (k It next hint s)
      (k It' next' hint' s')

theorem uniform_collect (c : Collect U T) : Uniform (σ := σ) c.driver := by
  intro It It' R next next' hint hint' hn _ s s' h
  unfold Collect.driver fromIter
  cases c.start with
  | inr t => exact .pure ⟨rfl, h⟩
  | inl a =>
    refine BothM.loop (R := fun x y => x.1 = y.1 ∧ R x.2 y.2) ?_ ⟨rfl, h⟩
    rintro ⟨a, s⟩ ⟨_, s'⟩ ⟨rfl, h⟩
    refine (hn s s' h).bind ?_
    rintro ⟨o, s⟩ ⟨_, s'⟩ ⟨rfl, h⟩
    cases o with
    | none => exact .pure (.inr ⟨rfl, h⟩)
    | some u =>
      dsimp only
      cases c.feed a u with
      | inl a' => exact .pure (.inl ⟨rfl, h⟩)
      | inr t => exact .pure (.inr ⟨rfl, h⟩)

theorem uniform_consumer (c : Consumer U T) : Uniform (σ := σ) c.driver := by
  intro It It' R next next' hint hint' hn hh s s' h
  unfold Consumer.driver
  refine BothM.loop (R := fun x y => x.1 = y.1 ∧ R x.2 y.2) ?_ ⟨rfl, h⟩
  rintro ⟨a, s⟩ ⟨_, s'⟩ ⟨rfl, h⟩
  dsimp only
  cases c.ask a with
  | done t => exact .pure (.inr ⟨rfl, h⟩)
  | panic => exact .panic
  | next k =>
    refine (hn s s' h).bind ?_
    rintro ⟨o, s⟩ ⟨_, s'⟩ ⟨rfl, h⟩
    exact .pure (.inl ⟨rfl, h⟩)
  | hint k => exact .pure (.inl ⟨by rw [hh s s' h], h⟩)

theorem uniform_vec (minCap room : Nat) : Uniform (σ := σ) (Driver.vec (U := U) minCap room) := by
  intro It It' R next next' hint hint' hn hh s s' h
  unfold Driver.vec
  refine (hn s s' h).bind ?_
  rintro ⟨o, s⟩ ⟨_, s'⟩ ⟨rfl, h⟩
  cases o with
  | none => exact .pure ⟨rfl, h⟩
  | some u =>
    dsimp only
    rw [hh s s' h]
    refine .seq _ fun cap => ?_
    refine BothM.loop (R := fun x y => x.1 = y.1 ∧ x.2.1 = y.2.1 ∧ R x.2.2 y.2.2) ?_ ⟨rfl, rfl, h⟩
    rintro ⟨acc, cap, s⟩ ⟨_, _, s'⟩ ⟨rfl, rfl, h⟩
    refine (hn s s' h).bind ?_
    rintro ⟨o, s⟩ ⟨_, s'⟩ ⟨rfl, h⟩
    cases o with
    | none => exact .pure (.inr ⟨rfl, h⟩)
    | some u =>
      dsimp only
      rw [hh s s' h]
      split
      · exact .seq _ fun cap => .pure (.inl ⟨rfl, rfl, h⟩)
      · exact .pure (.inl ⟨rfl, rfl, h⟩)

/-! ### The repetitions -/

open Bounded

/-- Final states of the iterator. -/
inductive EndRel (pos : Bool) : EndState I E → EndState I E' → Prop
  | error (b e b' e') : (pos = true → b = b') → EndRel pos (.error b e) (.error b' e')
  | incomplete (n) : EndRel pos (.incomplete n) (.incomplete n)

/-- Iterators. -/
def IterRel (pos : Bool) (x : Bounded.Iter I E D) (y : Bounded.Iter I E' D) : Prop :=
  EndRel pos x.state y.state ∧ x.buf = y.buf ∧ x.data = y.data

theorem iterNext (h : Hooks σ D) {p : Parser σ I U E} {p' : Parser σ I U E'} (hp : Alike pos p p')
    {x : Bounded.Iter I E D} {y : Bounded.Iter I E' D} (hr : IterRel pos x y) :
    BothM (NextRel (IterRel pos)) (Bounded.iterNext h p x) (Bounded.iterNext h p' y) := by
  obtain ⟨st, buf, d⟩ := x
  obtain ⟨st', _, _⟩ := y
  obtain ⟨hs, rfl, rfl⟩ := hr
  unfold Bounded.iterNext
  dsimp only
  split
  · exact .pure ⟨rfl, hs, rfl, rfl⟩
  · refine BothM.bind (R := (SameButErrors pos)) (hp buf) ?_
    intro r r' hr
    cases hr with
    | data i t => exact .seq _ fun d => .pure ⟨rfl, hs, rfl, rfl⟩
    | error b e b' e' => exact .pure ⟨rfl, .error _ _ _ _ (by assumption), rfl, rfl⟩
    | incomplete n => exact .pure ⟨rfl, .incomplete _, rfl, rfl⟩

theorem runIter {k : Driver σ U T} (hk : Uniform k) (d : D) (h : Hooks σ D)
    {fin : T → Input I → D → EndState I E → ParseResult I T E}
    {fin' : T → Input I → D → EndState I E' → ParseResult I T E'}
    (hfin : ∀ t i d s s', EndRel pos s s' → SameButErrors pos (fin t i d s) (fin' t i d s'))
    {p : Parser σ I U E} {p' : Parser σ I U E'} (hp : Alike pos p p') :
    Alike pos (Bounded.runIter k d h fin p) (Bounded.runIter k d h fin' p') := by
  intro i
  refine BothM.bind (hk _ _ (IterRel pos) _ _ _ _ (fun s s' => iterNext h hp) ?_ _ _ ?_) ?_
  · rintro s s' ⟨_, _, e⟩; rw [e]
  · exact ⟨.incomplete _, rfl, rfl⟩
  · rintro ⟨t, it⟩ ⟨_, it'⟩ ⟨rfl, hs, hb, hd⟩
    dsimp only at hs hb hd ⊢
    rw [hb, hd]
    exact .pure (hfin _ _ _ _ _ hs)

theorem lastSlice (i : Input I) (t : T) (n : Nat) :
    SameButErrors pos (E := E) (E' := E') (if i.isLastSlice then i.ret t else i.incomplete n)
      (if i.isLastSlice then i.ret t else i.incomplete n) := by
  split
  · exact .data ..
  · exact .incomplete _

theorem manyWith (r) {k : Driver σ U T} (hk : Uniform k)
    {p : Parser σ I U E} {p' : Parser σ I U E'} (hp : Alike pos p p') :
    Alike pos (Bounded.manyWith r k p) (Bounded.manyWith r k p') := by
  cases r with
  | range a b =>
    intro i
    show BothM _ (manyRange a b k p i) (manyRange a b k p' i)
    unfold manyRange
    split
    · refine runIter hk _ _ ?_ hp i
      rintro t i ⟨lo, hi⟩ s s' (⟨b, e, b', e', hb⟩ | n)
      · cases lo <;> cases hi <;> first | exact .data .. | exact .error _ _ _ _ (by assumption)
      · cases lo <;> cases hi <;> first
          | exact .data ..
          | exact .incomplete _
          | exact lastSlice ..
    · exact .panic
  | from_ n =>
    show Alike pos (manyFrom n k p) (manyFrom n k p')
    unfold manyFrom
    refine runIter hk _ _ ?_ hp
    rintro t i lo s s' (⟨b, e, b', e', hb⟩ | n)
    · cases lo <;> first | exact .data .. | exact .error _ _ _ _ (by assumption)
    · cases lo <;> first
        | exact .incomplete _
        | exact lastSlice ..
  | full =>
    show Alike pos (manyFull k p) (manyFull k p')
    unfold manyFull
    refine runIter hk _ _ ?_ hp
    rintro t i lo s s' (⟨b, e, b', e', hb⟩ | n)
    · exact .data ..
    · dsimp only
      split <;> first | exact .data .. | exact .incomplete _
  | to n =>
    show Alike pos (manyTo n k p) (manyTo n k p')
    unfold manyTo
    refine runIter hk _ _ ?_ hp
    rintro t i hi s s' (⟨b, e, b', e', hb⟩ | n)
    · cases hi <;> exact .data ..
    · cases hi <;> first
        | exact .data ..
        | exact lastSlice ..
  | exactly n =>
    show Alike pos (manyExactly n k p) (manyExactly n k p')
    unfold manyExactly
    refine runIter hk _ _ ?_ hp
    rintro t i hi s s' (⟨b, e, b', e', hb⟩ | n)
    · cases hi <;> first | exact .data .. | exact .error _ _ _ _ (by assumption)
    · cases hi <;> first | exact .data .. | exact .incomplete _

/-- A step which ends the loop. -/
theorem stop {R : S → S → Prop} {x : ParseResult I T E} {y : ParseResult I T E'}
    (h : SameButErrors pos x y) : BothM (σ := σ) (Step R (SameButErrors pos)) (pure (.inr x)) (pure (.inr y)) :=
  .pure (.inr h)

theorem skipMany (r) {p : Parser σ I T E} {p' : Parser σ I T E'} (hp : Alike pos p p') :
    Alike pos (Bounded.skipMany r p) (Bounded.skipMany r p') := by
  intro i
  cases r with
  | range a b =>
    show BothM _ (skipManyRange a b p i) (skipManyRange a b p' i)
    unfold skipManyRange
    split
    · refine .loop_eq ?_ _
      rintro ⟨i, lo, hi⟩
      dsimp only
      split
      · exact stop (.data ..)
      · refine BothM.bind (R := (SameButErrors pos)) (hp i) ?_
        rintro _ _ (_ | _ | _)
        · exact .seq _ fun _ => .seq _ fun _ => .pure (.inl rfl)
        · dsimp only; split
          · exact stop (.data ..)
          · exact stop (.error _ _ _ _ (by assumption))
        · dsimp only; split
          · exact stop (.data ..)
          · exact stop (.incomplete _)
    · exact .panic
  | from_ n =>
    refine BothM.loop_eq ?_ _
    rintro ⟨i, lo⟩
    refine BothM.bind (R := (SameButErrors pos)) (hp i) ?_
    rintro _ _ (_ | _ | _)
    · exact .seq _ fun _ => .pure (.inl rfl)
    · dsimp only; split
      · exact stop (.data ..)
      · exact stop (.error _ _ _ _ (by assumption))
    · dsimp only; split
      · exact stop (.data ..)
      · exact stop (.incomplete _)
  | full =>
    refine BothM.loop_eq ?_ _
    intro i
    refine BothM.bind (R := (SameButErrors pos)) (hp i) ?_
    rintro _ _ (_ | _ | _)
    · exact .pure (.inl rfl)
    · exact stop (.data ..)
    · dsimp only; split
      · exact stop (.data ..)
      · exact stop (.incomplete _)
  | to n =>
    refine BothM.loop_eq ?_ _
    rintro ⟨i, hi⟩
    dsimp only
    split
    · exact stop (.data ..)
    · refine BothM.bind (R := (SameButErrors pos)) (hp i) ?_
      rintro _ _ (_ | _ | _)
      · exact .seq _ fun _ => .pure (.inl rfl)
      · exact stop (.data ..)
      · dsimp only; split
        · exact stop (.data ..)
        · exact stop (.incomplete _)
  | exactly n =>
    refine BothM.loop_eq ?_ _
    rintro ⟨i, n⟩
    dsimp only
    split
    · exact stop (.data ..)
    · refine BothM.bind (R := (SameButErrors pos)) (hp i) ?_
      rintro _ _ (_ | _ | _)
      · exact .seq _ fun _ => .pure (.inl rfl)
      · exact stop (.error _ _ _ _ (by assumption))
      · dsimp only; split
        · exact stop (.data ..)
        · exact stop (.incomplete _)

/-- Final states of the iterator of `many_till`. -/
inductive EndTillRel (pos : Bool) : EndStateTill I E → EndStateTill I E' → Prop
  | error (b e b' e') : (pos = true → b = b') → EndTillRel pos (.error b e) (.error b' e')
  | incomplete (n) : EndTillRel pos (.incomplete n) (.incomplete n)
  | endSuccess : EndTillRel pos .endSuccess .endSuccess

/-- Iterators of `many_till`. -/
def TillRel (pos : Bool) (x : IterTill I E D) (y : IterTill I E' D) : Prop :=
  EndTillRel pos x.state y.state ∧ x.buf = y.buf ∧ x.data = y.data

/-- Results of the end test. -/
def PreRel (pos : Bool) (x : Bool × IterTill I E D) (y : Bool × IterTill I E' D) : Prop :=
  x.1 = y.1 ∧ TillRel pos x.2 y.2

theorem endTest {q : Parser σ I V N} {q' : Parser σ I V N'} (hq : Alike pos q q')
    {x : IterTill I E D} {y : IterTill I E' D} (h : TillRel pos x y) :
    BothM (PreRel pos) (Bounded.endTest q x) (Bounded.endTest q' y) := by
  obtain ⟨st, buf, d⟩ := x
  obtain ⟨st', _, _⟩ := y
  obtain ⟨hs, rfl, rfl⟩ := h
  refine BothM.bind (R := (SameButErrors pos)) (hq buf) ?_
  rintro _ _ (_ | _ | _)
  · exact .pure ⟨rfl, .endSuccess, rfl, rfl⟩
  · exact .pure ⟨rfl, hs, rfl, rfl⟩
  · exact .pure ⟨rfl, hs, rfl, rfl⟩

theorem iterTillNext {h : HooksTill σ I E D} {h' : HooksTill σ I E' D}
    (hpre : ∀ x y, TillRel pos x y → BothM (PreRel pos) (h.pre x) (h'.pre y)) (hon : h.on = h'.on)
    {p : Parser σ I U E} {p' : Parser σ I U E'} (hp : Alike pos p p')
    {x : IterTill I E D} {y : IterTill I E' D} (hr : TillRel pos x y) :
    BothM (NextRel (TillRel pos)) (Bounded.iterTillNext h p x) (Bounded.iterTillNext h' p' y) := by
  refine (hpre x y hr).bind ?_
  rintro ⟨s, st, buf, d⟩ ⟨_, st', _, _⟩ ⟨rfl, hs, rfl, rfl⟩
  dsimp only
  split
  · exact .pure ⟨rfl, hs, rfl, rfl⟩
  · refine BothM.bind (R := (SameButErrors pos)) (hp buf) ?_
    intro r r' hr
    cases hr with
    | data i t =>
      dsimp only
      rw [hon]
      exact .seq _ fun d => .pure ⟨rfl, hs, rfl, rfl⟩
    | error b e b' e' => exact .pure ⟨rfl, .error _ _ _ _ (by assumption), rfl, rfl⟩
    | incomplete n => exact .pure ⟨rfl, .incomplete _, rfl, rfl⟩

theorem runIterTill {k : Driver σ U T} (hk : Uniform k) (d : D) {h : HooksTill σ I E D}
    {h' : HooksTill σ I E' D}
    {fin : T → Input I → D → EndStateTill I E → M σ (ParseResult I T E)}
    {fin' : T → Input I → D → EndStateTill I E' → M σ (ParseResult I T E')}
    (hpre : ∀ x y, TillRel pos x y → BothM (PreRel pos) (h.pre x) (h'.pre y)) (hon : h.on = h'.on)
    (hhint : h.sizeHint = h'.sizeHint)
    (hfin : ∀ t i d s s', EndTillRel pos s s' → BothM (SameButErrors pos) (fin t i d s) (fin' t i d s'))
    {p : Parser σ I U E} {p' : Parser σ I U E'} (hp : Alike pos p p') :
    Alike pos (Bounded.runIterTill k d h fin p) (Bounded.runIterTill k d h' fin' p') := by
  intro i
  refine BothM.bind (hk _ _ (TillRel pos) _ _ _ _ (fun s s' => iterTillNext hpre hon hp) ?_ _ _ ?_) ?_
  · rintro s s' ⟨_, _, e⟩; rw [e, hhint]
  · exact ⟨.incomplete _, rfl, rfl⟩
  · rintro ⟨t, it⟩ ⟨_, it'⟩ ⟨rfl, hs, hb, hd⟩
    dsimp only at hs hb hd ⊢
    rw [hb, hd]
    exact hfin _ _ _ _ _ hs

theorem manyTillWith (r) {k : Driver σ U T} (hk : Uniform k)
    {p : Parser σ I U E} {p' : Parser σ I U E'} (hp : Alike pos p p')
    {q : Parser σ I V N} {q' : Parser σ I V N'} (hq : Alike pos q q') :
    Alike pos (Bounded.manyTillWith r k p q) (Bounded.manyTillWith r k p' q') := by
  cases r with
  | range a b =>
    intro i
    show BothM _ (manyTillRange a b k p q i) (manyTillRange a b k p' q' i)
    unfold manyTillRange
    split
    · refine runIterTill hk _ ?_ ?_ ?_ ?_ hp i
      · intro x y h
        have key : ∀ {x : IterTill I E (Nat × Nat)} {y : IterTill I E' (Nat × Nat)} (s : Bool),
            TillRel pos x y → BothM (σ := σ) (PreRel pos)
              (if s = true then Pure.pure (true, x) else if x.data.2 == 0 then do
                let (_, x) ← Bounded.endTest q x
                Pure.pure (true, x)
              else Pure.pure (false, x))
              (if s = true then Pure.pure (true, y) else if y.data.2 == 0 then do
                let (_, y) ← Bounded.endTest q' y
                Pure.pure (true, y)
              else Pure.pure (false, y)) := by
          intro x y s h
          split
          · exact .pure ⟨rfl, h⟩
          · rw [h.2.2]
            split
            · refine (endTest hq h).bind ?_
              rintro ⟨_, x⟩ ⟨_, y⟩ ⟨_, h⟩
              exact .pure ⟨rfl, h⟩
            · exact .pure ⟨rfl, h⟩
        unfold hooksTillRange
        dsimp only
        rw [h.2.2]
        split
        · refine (endTest hq h).bind ?_
          rintro ⟨s, x⟩ ⟨_, y⟩ ⟨rfl, h⟩
          exact key s h
        · exact BothM.bind (R := PreRel pos) (.pure ⟨rfl, h⟩) fun _ _ h => by
            obtain ⟨e, h⟩ := h
            rw [e]
            exact key _ h
      · rfl
      · rfl
      · rintro t i ⟨lo, hi⟩ s s' (⟨b, e, b', e', hb⟩ | n | _) <;> cases lo <;> first
          | exact .panic
          | exact .pure (.data ..)
          | exact .pure (.error _ _ _ _ (by assumption))
          | exact .pure (.incomplete _)
    · exact .panic
  | from_ n =>
    show Alike pos (manyTillFrom n k p q) (manyTillFrom n k p' q')
    unfold manyTillFrom
    refine runIterTill hk _ ?_ ?_ ?_ ?_ hp
    · intro x y h
      show BothM (PreRel pos) (if x.data == 0 then _ else _) (if y.data == 0 then _ else _)
      rw [h.2.2]
      split
      · exact endTest hq h
      · exact .pure ⟨rfl, h⟩
    · rfl
    · rfl
    · rintro t i lo s s' (⟨b, e, b', e', hb⟩ | n | _) <;> cases lo <;> first
          | exact .panic
          | exact .pure (.data ..)
          | exact .pure (.error _ _ _ _ (by assumption))
          | exact .pure (.incomplete _)
  | full =>
    show Alike pos (manyTillFull k p q) (manyTillFull k p' q')
    unfold manyTillFull
    refine runIterTill hk _ ?_ ?_ ?_ ?_ hp
    · intro x y h
      exact endTest hq h
    · rfl
    · rfl
    · rintro t i lo s s' (⟨b, e, b', e', hb⟩ | n | _) <;> first
          | exact .pure (.data ..)
          | exact .pure (.error _ _ _ _ (by assumption))
          | exact .pure (.incomplete _)
  | to n =>
    show Alike pos (manyTillTo n k p q) (manyTillTo n k p' q')
    unfold manyTillTo
    refine runIterTill hk _ ?_ ?_ ?_ ?_ hp
    · intro x y h
      refine (endTest hq h).bind ?_
      rintro ⟨s, x⟩ ⟨_, y⟩ ⟨rfl, h⟩
      dsimp only at h ⊢
      split
      · exact .pure ⟨rfl, h⟩
      · rw [h.2.2]; exact .pure ⟨rfl, h⟩
    · rfl
    · rfl
    · rintro t i lo s s' (⟨b, e, b', e', hb⟩ | n | _) <;> cases lo <;> first
          | exact .panic
          | exact .pure (.data ..)
          | exact .pure (.error _ _ _ _ (by assumption))
          | exact .pure (.incomplete _)
  | exactly n =>
    show Alike pos (manyTillExactly n k p q) (manyTillExactly n k p' q')
    unfold manyTillExactly
    refine runIterTill hk _ ?_ ?_ ?_ ?_ hp
    · intro x y h
      show BothM (PreRel pos) (if x.data == 0 then _ else _) (if y.data == 0 then _ else _)
      rw [h.2.2]
      split
      · refine (endTest hq h).bind ?_
        rintro ⟨s, x⟩ ⟨_, y⟩ ⟨_, h⟩
        exact .pure ⟨rfl, h⟩
      · exact .pure ⟨rfl, h⟩
    · rfl
    · rfl
    · rintro t i lo s s' (⟨b, e, b', e', hb⟩ | n | _) <;> cases lo <;> first
          | exact .panic
          | exact .pure (.data ..)
          | exact .pure (.error _ _ _ _ (by assumption))
          | exact .pure (.incomplete _)

/-! ### Everything else -/

theorem refl (p : Parser σ I T E) : Alike pos p p := by
  intro i w
  cases p i w with
  | ok r =>
    obtain ⟨r, w⟩ := r
    cases r with
    | data i t => exact .ok _ _ _ (.data ..)
    | error b e => exact .ok _ _ _ (.error _ _ _ _ fun _ => rfl)
    | incomplete n => exact .ok _ _ _ (.incomplete _)
  | panic => exact .panic
  | ub => exact .ub
  | div => exact .div

theorem resultBind {r : ParseResult I T E} {r' : ParseResult I T E'} (h : SameButErrors pos r r')
    (conv : E → V) (conv' : E' → V') {f : Input I → T → M σ (ParseResult I U V)}
    {f' : Input I → T → M σ (ParseResult I U V')}
    (hf : ∀ i t, BothM (SameButErrors pos) (f i t) (f' i t)) :
    BothM (SameButErrors pos) (r.bind conv f) (r'.bind conv' f') := by
  cases h with
  | data i t =>
    refine (hf i t).bind ?_
    rintro _ _ (_ | _ | _)
    · exact .pure (.data ..)
    · exact .pure (.error _ _ _ _ (by assumption))
    · exact .pure (.incomplete _)
  | error => exact .pure (.error _ _ _ _ (by assumption))
  | incomplete n => exact .pure (.incomplete _)

theorem resultMap {r : ParseResult I T E} {r' : ParseResult I T E'} (h : SameButErrors pos r r')
    (f : T → M σ U) : BothM (SameButErrors pos) (r.map f) (r'.map f) := by
  cases h with
  | data i t => exact .seq _ fun _ => .pure (.data ..)
  | error => exact .pure (.error _ _ _ _ (by assumption))
  | incomplete n => exact .pure (.incomplete _)

theorem resultInspect {r : ParseResult I T E} {r' : ParseResult I T E'} (h : SameButErrors pos r r')
    (f : T → M σ Unit) : BothM (SameButErrors pos) (r.inspect f) (r'.inspect f) := by
  cases h with
  | data i t => exact .seq _ fun _ => .pure (.data ..)
  | error => exact .pure (.error _ _ _ _ (by assumption))
  | incomplete n => exact .pure (.incomplete _)

theorem parserBind {p : Parser σ I T E} {p' : Parser σ I T E'} (conv : E → V) (conv' : E' → V')
    {f : T → Parser σ I U V} {f' : T → Parser σ I U V'} (hp : Alike pos p p')
    (hf : ∀ t, Alike pos (f t) (f' t)) : Alike pos (Parser.bind conv p f) (Parser.bind conv' p' f') := by
  intro i
  refine BothM.bind (hp i) ?_
  intro r r' h
  exact resultBind h conv conv' fun i t => hf t i

theorem option {p : Parser σ I T E} {p' : Parser σ I T E'} (t : T) (hp : Alike pos p p') :
    Alike pos (Comb.option p t) (Comb.option p' t) := by
  intro i
  refine BothM.bind (hp i) ?_
  rintro _ _ (_ | _ | _)
  · exact .pure (.data ..)
  · exact .pure (.data ..)
  · dsimp only
    split
    · exact .pure (.data ..)
    · exact .pure (.incomplete _)

theorem or {p q : Parser σ I T E} {p' q' : Parser σ I T E'} (hp : Alike pos p p') (hq : Alike pos q q') :
    Alike pos (Comb.or p q) (Comb.or p' q') := by
  intro i
  refine BothM.bind (hp i) ?_
  rintro _ _ (_ | _ | _)
  · exact .pure (.data ..)
  · exact hq i
  · dsimp only
    split
    · exact hq i
    · exact .pure (.incomplete _)

theorem withLocal {R : A → B → Prop} {x : M σ A} {y : M σ B} (h : BothM R x y) :
    BothM (σ := σ × τ) R (Comb.withLocal x) (Comb.withLocal y) := by
  intro w
  have := h w.1
  unfold Comb.withLocal
  revert this
  generalize x w.1 = u
  generalize y w.1 = v
  intro this
  cases this with
  | ok a b w' h => exact .ok _ _ _ h
  | panic => exact .panic
  | ub => exact .ub
  | div => exact .div

theorem newLocal {R : A → B → Prop} (t : τ) {x : M (σ × τ) A} {y : M (σ × τ) B} (h : BothM R x y) :
    BothM R (Comb.newLocal t x) (Comb.newLocal t y) := by
  intro w
  have := h (w, t)
  unfold Comb.newLocal
  revert this
  generalize x (w, t) = u
  generalize y (w, t) = v
  intro this
  cases this with
  | ok a b w' h => exact .ok _ _ _ h
  | panic => exact .panic
  | ub => exact .ub
  | div => exact .div

theorem sepParser (conv : N → E) (conv' : N' → E') {p : Parser σ I U E} {p' : Parser σ I U E'}
    {sep : Parser σ I V N} {sep' : Parser σ I V N'} (hp : Alike pos p p') (hs : Alike pos sep sep') :
    Alike pos (Comb.sepParser conv p sep) (Comb.sepParser conv' p' sep') := by
  intro i
  have key : ∀ {r : ParseResult I Unit N} {r' : ParseResult I Unit N'}, SameButErrors pos r r' →
      BothM (SameButErrors pos)
        (do let r ← r.andThen conv (fun i => Comb.withLocal (p i))
            r.inspect (fun _ => modify (fun w => (w.1, true))) : M (σ × Bool) _)
        (do let r ← r'.andThen conv' (fun i => Comb.withLocal (p' i))
            r.inspect (fun _ => modify (fun w => (w.1, true)))) := by
    intro r r' h
    refine BothM.bind (R := (SameButErrors pos)) ?_ ?_
    · exact resultBind h conv conv' fun i _ => withLocal (R := (SameButErrors pos)) (hp i)
    · intro r r' h
      exact resultInspect h _
  refine BothM.seq _ fun w => ?_
  dsimp only
  split
  · refine (withLocal (R := (SameButErrors pos)) (hs i)).bind ?_
    intro r r' h
    refine (resultMap h _).bind ?_
    intro r r' h
    exact key h
  · exact BothM.bind (R := (SameButErrors pos)) (.pure (.data ..)) fun _ _ h => key h

theorem matchedBy {p : Parser σ I T E} {p' : Parser σ I T E'} (hp : Alike pos p p') :
    Alike pos (Comb.matchedBy p) (Comb.matchedBy p') := by
  intro i
  refine BothM.bind (hp i) ?_
  rintro _ _ (_ | _ | _)
  · exact .seq _ fun _ => .seq _ fun _ => .pure (.data ..)
  · exact .pure (.error _ _ _ _ (by assumption))
  · exact .pure (.incomplete _)

theorem lookAhead {p : Parser σ I T E} {p' : Parser σ I T E'} (hp : Alike pos p p') :
    Alike pos (Comb.lookAhead p) (Comb.lookAhead p') := by
  intro i
  refine BothM.bind (hp i) ?_
  rintro _ _ (_ | _ | _)
  · exact .pure (.data ..)
  · exact .pure (.error _ _ _ _ (by assumption))
  · exact .pure (.incomplete _)

theorem satisfy (v v') (f : I → Bool) :
    Alike pos (Parsers.satisfy (σ := σ) v f) (Parsers.satisfy v' f) := by
  intro i w
  rw [Parsers.satisfy_eq, Parsers.satisfy_eq]
  refine .ok _ _ _ ?_
  split
  · exact .incomplete _
  · split
    · exact .data ..
    · exact .error _ _ _ _ fun _ => rfl

theorem takeWhile1 (v v') (f : I → Bool) :
    Alike pos (Parsers.takeWhile1 (σ := σ) v f) (Parsers.takeWhile1 v' f) := by
  intro i w
  rw [Parsers.takeWhile1_eq, Parsers.takeWhile1_eq]
  refine .ok _ _ _ ?_
  repeat (split <;> try first | exact .incomplete _ | exact .data .. | exact .error _ _ _ _ fun _ => rfl)

end Chomp.Twins
