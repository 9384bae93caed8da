import Verif.Lemmas.Twins
import Verif.Spec.Mirror

/-
Combinators and parsers on related input.
-/

namespace Chomp.Spec

variable {R : I → J → Prop}

theorem Slices.length {s t} (h : Slices R s t) : s.length = t.length := by
  induction h with
  | nil => rfl
  | cons _ _ ih => simp [ih]

theorem Slices.drop {s t} (h : Slices R s t) : ∀ n, Slices R (s.drop n) (t.drop n) := by
  induction h with
  | nil => intro n; simp; exact .nil
  | cons h1 h2 ih =>
    intro n
    cases n with
    | zero => exact .cons h1 h2
    | succ n => exact ih n

theorem Slices.take {s t} (h : Slices R s t) : ∀ n, Slices R (s.take n) (t.take n) := by
  induction h with
  | nil => intro n; simp; exact .nil
  | cons h1 h2 ih =>
    intro n
    cases n with
    | zero => exact .nil
    | succ n => exact .cons h1 (ih n)

theorem Slices.head? {s t} (h : Slices R s t) : Options R s.head? t.head? := by
  cases h with
  | nil => exact .none
  | cons h1 _ => exact .some h1

theorem Slices.append {s t u v} (h : Slices R s t) (h' : Slices R u v) : Slices R (s ++ u) (t ++ v) := by
  induction h with
  | nil => exact h'
  | cons h1 _ ih => exact .cons h1 ih

theorem Slices.reverse {s t} (h : Slices R s t) : Slices R s.reverse t.reverse := by
  induction h with
  | nil => exact .nil
  | cons h1 _ ih => rw [List.reverse_cons, List.reverse_cons]; exact ih.append (.cons h1 .nil)

end Chomp.Spec

namespace Chomp.Mirror

open Spec Twins

variable {R : I → J → Prop}

theorem sliceFrom {s t} (h : Slices R s t) (n : Nat) :
    BothM (σ := σ) (Slices R) (Chomp.sliceFrom s n) (Chomp.sliceFrom t n) := by
  unfold Chomp.sliceFrom
  rw [h.length]
  split
  · exact .pure (h.drop n)
  · exact .panic

theorem sliceTo {s t} (h : Slices R s t) (n : Nat) :
    BothM (σ := σ) (Slices R) (Chomp.sliceTo s n) (Chomp.sliceTo t n) := by
  unfold Chomp.sliceTo
  rw [h.length]
  split
  · exact .pure (h.take n)
  · exact .panic

theorem isLastSlice {i : Input I} {j : Input J} (h : Inputs R i j) : i.isLastSlice = j.isLastSlice := by
  unfold Input.isLastSlice
  rw [h.mode]

theorem replace {i : Input I} {j : Input J} (h : Inputs R i j) {s t} (hs : Slices R s t) :
    Inputs R (i.replace s) (j.replace t) := ⟨h.mode, hs⟩

theorem length {i : Input I} {j : Input J} (h : Inputs R i j) : i.buf.length = j.buf.length := h.buf.length

/-! ### `src/parse_result.rs` -/

theorem resultBind {V : T → T' → Prop} {W : E → E' → Prop} {V' : U → U' → Prop} {W' : D → D' → Prop}
    {r : ParseResult I T E} {r' : ParseResult J T' E'} (h : Results R V W r r')
    {conv : E → D} {conv' : E' → D'} (hc : ∀ e e', W e e' → W' (conv e) (conv' e'))
    {f : Input I → T → M σ (ParseResult I U D)} {f' : Input J → T' → M σ (ParseResult J U' D')}
    (hf : ∀ i j t t', Inputs R i j → V t t' → BothM (Results R V' W') (f i t) (f' j t')) :
    BothM (Results R V' W') (r.bind conv f) (r'.bind conv' f') := by
  cases h with
  | data hi ht =>
    refine (hf _ _ _ _ hi ht).bind ?_
    intro r r' h
    cases h with
    | data hi ht => exact .pure (.data hi ht)
    | error hb he => exact .pure (.error hb he)
    | incomplete => exact .pure .incomplete
  | error hb he => exact .pure (.error hb (hc _ _ he))
  | incomplete => exact .pure .incomplete

theorem resultMap {V : T → T' → Prop} {W : E → E' → Prop} {V' : U → U' → Prop}
    {r : ParseResult I T E} {r' : ParseResult J T' E'} (h : Results R V W r r')
    {f : T → M σ U} {g : T' → M σ U'} (hf : Same V V' f g) :
    BothM (Results R V' W) (r.map f) (r'.map g) := by
  cases h with
  | data hi ht => exact BothM.bind (fun w => hf _ _ w ht) fun _ _ h => .pure (.data hi h)
  | error hb he => exact .pure (.error hb he)
  | incomplete => exact .pure .incomplete

theorem resultMapErr {V : T → T' → Prop} {W : E → E' → Prop} {W' : D → D' → Prop}
    {r : ParseResult I T E} {r' : ParseResult J T' E'} (h : Results R V W r r')
    {f : E → M σ D} {g : E' → M σ D'} (hf : Same W W' f g) :
    BothM (Results R V W') (r.mapErr f) (r'.mapErr g) := by
  cases h with
  | data hi ht => exact .pure (.data hi ht)
  | error hb he => exact BothM.bind (fun w => hf _ _ w he) fun _ _ h => .pure (.error hb h)
  | incomplete => exact .pure .incomplete

theorem resultInspect {V : T → T' → Prop} {W : E → E' → Prop}
    {r : ParseResult I T E} {r' : ParseResult J T' E'} (h : Results R V W r r')
    {f : T → M σ Unit} {g : T' → M σ Unit} (hf : Same V Eq f g) :
    BothM (Results R V W) (r.inspect f) (r'.inspect g) := by
  cases h with
  | data hi ht => exact BothM.bind (fun w => hf _ _ w ht) fun _ _ _ => .pure (.data hi ht)
  | error hb he => exact .pure (.error hb he)
  | incomplete => exact .pure .incomplete

/-! ### The repetitions -/

open Bounded

/-- Final states of the iterator. -/
inductive EndRel (R : I → J → Prop) (W : E → E' → Prop) : EndState I E → EndState J E' → Prop
  | error {b e b' e'} : Slices R b b' → W e e' → EndRel R W (.error b e) (.error b' e')
  | incomplete (n) : EndRel R W (.incomplete n) (.incomplete n)

/-- Iterators. -/
def IterRel (R : I → J → Prop) (W : E → E' → Prop) (x : Bounded.Iter I E D) (y : Bounded.Iter J E' D) : Prop :=
  EndRel R W x.state y.state ∧ Inputs R x.buf y.buf ∧ x.data = y.data

theorem iterNext {V : U → U' → Prop} {W : E → E' → Prop} (h : Hooks σ D) {p : Parser σ I U E}
    {p' : Parser σ J U' E'} (hp : Mirror R V W p p')
    {x : Bounded.Iter I E D} {y : Bounded.Iter J E' D} (hr : IterRel R W x y) :
    BothM (Pairs (Options V) (IterRel R W)) (Bounded.iterNext h p x) (Bounded.iterNext h p' y) := by
  obtain ⟨st, buf, d⟩ := x
  obtain ⟨st', buf', _⟩ := y
  obtain ⟨hs, hb, rfl⟩ := hr
  unfold Bounded.iterNext
  dsimp only at hs hb ⊢
  split
  · exact .pure ⟨.none, hs, hb, rfl⟩
  · refine BothM.bind (R := Results R V W) (fun w => hp _ _ w hb) ?_
    intro r r' hr
    cases hr with
    | data hi ht => exact .seq _ fun d => .pure ⟨.some ht, hs, hi, rfl⟩
    | error he hw => exact .pure ⟨.none, .error he hw, hb, rfl⟩
    | incomplete => exact .pure ⟨.none, .incomplete _, hb, rfl⟩

theorem runIter {V : U → U' → Prop} {W : E → E' → Prop} {X : T → T' → Prop} {k : Driver σ U T}
    {k' : Driver σ U' T'} (hk : SameCollection V X k k') (d : D) (h : Hooks σ D)
    {fin : T → Input I → D → EndState I E → ParseResult I T E}
    {fin' : T' → Input J → D → EndState J E' → ParseResult J T' E'}
    (hfin : ∀ t t' i j d s s', X t t' → Inputs R i j → EndRel R W s s' →
      Results R X W (fin t i d s) (fin' t' j d s'))
    {p : Parser σ I U E} {p' : Parser σ J U' E'} (hp : Mirror R V W p p') :
    Mirror R X W (Bounded.runIter k d h fin p) (Bounded.runIter k' d h fin' p') := by
  intro i j w hij
  refine BothM.bind (fun w => hk _ _ (IterRel R W) _ _ _ _ (fun s s' w hr => iterNext h hp hr w) ?_ _ _ w ?_) ?_ w
  · rintro s s' ⟨_, _, e⟩; dsimp only; rw [e]
  · exact ⟨.incomplete _, hij, rfl⟩
  · rintro ⟨t, it⟩ ⟨t', it'⟩ ⟨ht, hs, hb, hd⟩
    dsimp only at hs hb hd ht ⊢
    rw [hd]
    exact .pure (hfin _ _ _ _ _ _ _ ht hb hs)

theorem lastSlice {V : T → T' → Prop} {W : E → E' → Prop} {i : Input I} {j : Input J} (h : Inputs R i j)
    {t : T} {t' : T'} (ht : V t t') (n : Nat) :
    Results R V W (if i.isLastSlice then i.ret t else i.incomplete n)
      (if j.isLastSlice then j.ret t' else j.incomplete n) := by
  rw [isLastSlice h]
  split
  · exact .data h ht
  · exact .incomplete

theorem manyWith {V : U → U' → Prop} {W : E → E' → Prop} {X : T → T' → Prop} (r) {k : Driver σ U T}
    {k' : Driver σ U' T'} (hk : SameCollection V X k k')
    {p : Parser σ I U E} {p' : Parser σ J U' E'} (hp : Mirror R V W p p') :
    Mirror R X W (Bounded.manyWith r k p) (Bounded.manyWith r k' p') := by
  cases r with
  | range a b =>
    intro i j w hij
    show Both _ (manyRange a b k p i w) (manyRange a b k' p' j w)
    unfold manyRange
    split
    · refine runIter hk _ _ ?_ hp i j w hij
      rintro t t' i j ⟨lo, hi⟩ s s' ht hij (⟨hb, he⟩ | n)
      · cases lo <;> cases hi <;> first | exact .data hij ht | exact .error hb he
      · cases lo <;> cases hi <;> first
          | exact .data hij ht
          | exact .incomplete
          | exact lastSlice hij ht _
    · exact .panic
  | from_ n =>
    show Mirror R X W (manyFrom n k p) (manyFrom n k' p')
    unfold manyFrom
    refine runIter hk _ _ ?_ hp
    rintro t t' i j lo s s' ht hij (⟨hb, he⟩ | n)
    · cases lo <;> first | exact .data hij ht | exact .error hb he
    · cases lo <;> first
        | exact .incomplete
        | exact lastSlice hij ht _
  | full =>
    show Mirror R X W (manyFull k p) (manyFull k' p')
    unfold manyFull
    refine runIter hk _ _ ?_ hp
    rintro t t' i j lo s s' ht hij (⟨hb, he⟩ | n)
    · exact .data hij ht
    · exact lastSlice hij ht _
  | to n =>
    show Mirror R X W (manyTo n k p) (manyTo n k' p')
    unfold manyTo
    refine runIter hk _ _ ?_ hp
    rintro t t' i j hi s s' ht hij (⟨hb, he⟩ | n)
    · cases hi <;> exact .data hij ht
    · cases hi <;> first
        | exact .data hij ht
        | exact lastSlice hij ht _
  | exactly n =>
    show Mirror R X W (manyExactly n k p) (manyExactly n k' p')
    unfold manyExactly
    refine runIter hk _ _ ?_ hp
    rintro t t' i j hi s s' ht hij (⟨hb, he⟩ | n)
    · cases hi <;> first | exact .data hij ht | exact .error hb he
    · cases hi <;> first | exact .data hij ht | exact .incomplete

theorem skipMany {V : T → T' → Prop} {W : E → E' → Prop} (r) {p : Parser σ I T E} {p' : Parser σ J T' E'}
    (hp : Mirror R V W p p') :
    Mirror R Eq W (Bounded.skipMany r p) (Bounded.skipMany r p') := by
  intro i j w hij
  revert w
  have hp' : ∀ {i j}, Inputs R i j → BothM (Results R V W) (p i) (p' j) := fun h w => hp _ _ w h
  cases r with
  | range a b =>
    show BothM _ (skipManyRange a b p i) (skipManyRange a b p' j)
    unfold skipManyRange
    split
    · refine .loop (R := Pairs (Inputs R) Eq) ?_ ⟨hij, rfl⟩
      rintro ⟨i, lo, hi⟩ ⟨j, _⟩ ⟨hij, rfl⟩
      dsimp only at hij ⊢
      split
      · exact .pure (.inr (.data hij rfl))
      · refine BothM.bind (hp' hij) ?_
        intro r r' hr
        cases hr with
        | data hi ht => exact .seq _ fun _ => .seq _ fun _ => .pure (.inl ⟨hi, rfl⟩)
        | error hb he =>
          dsimp only; split
          · exact .pure (.inr (.data hij rfl))
          · exact .pure (.inr (.error hb he))
        | incomplete =>
          dsimp only; rw [isLastSlice hij]; split
          · exact .pure (.inr (.data hij rfl))
          · exact .pure (.inr .incomplete)
    · exact .panic
  | from_ n =>
    refine BothM.loop (R := Pairs (Inputs R) Eq) ?_ ⟨hij, rfl⟩
    rintro ⟨i, lo⟩ ⟨j, _⟩ ⟨hij, rfl⟩
    dsimp only at hij ⊢
    refine BothM.bind (hp' hij) ?_
    intro r r' hr
    cases hr with
    | data hi ht => exact .seq _ fun _ => .pure (.inl ⟨hi, rfl⟩)
    | error hb he =>
      dsimp only; split
      · exact .pure (.inr (.data hij rfl))
      · exact .pure (.inr (.error hb he))
    | incomplete =>
      dsimp only; rw [isLastSlice hij]; split
      · exact .pure (.inr (.data hij rfl))
      · exact .pure (.inr .incomplete)
  | full =>
    refine BothM.loop (R := Inputs R) ?_ hij
    intro i j hij
    refine BothM.bind (hp' hij) ?_
    intro r r' hr
    cases hr with
    | data hi ht => exact .pure (.inl hi)
    | error hb he => exact .pure (.inr (.data hij rfl))
    | incomplete =>
      dsimp only; rw [isLastSlice hij]; split
      · exact .pure (.inr (.data hij rfl))
      · exact .pure (.inr .incomplete)
  | to n =>
    refine BothM.loop (R := Pairs (Inputs R) Eq) ?_ ⟨hij, rfl⟩
    rintro ⟨i, hi⟩ ⟨j, _⟩ ⟨hij, rfl⟩
    dsimp only at hij ⊢
    split
    · exact .pure (.inr (.data hij rfl))
    · refine BothM.bind (hp' hij) ?_
      intro r r' hr
      cases hr with
      | data hi ht => exact .seq _ fun _ => .pure (.inl ⟨hi, rfl⟩)
      | error hb he => exact .pure (.inr (.data hij rfl))
      | incomplete =>
        dsimp only; rw [isLastSlice hij]; split
        · exact .pure (.inr (.data hij rfl))
        · exact .pure (.inr .incomplete)
  | exactly n =>
    refine BothM.loop (R := Pairs (Inputs R) Eq) ?_ ⟨hij, rfl⟩
    rintro ⟨i, n⟩ ⟨j, _⟩ ⟨hij, rfl⟩
    dsimp only at hij ⊢
    split
    · exact .pure (.inr (.data hij rfl))
    · refine BothM.bind (hp' hij) ?_
      intro r r' hr
      cases hr with
      | data hi ht => exact .seq _ fun _ => .pure (.inl ⟨hi, rfl⟩)
      | error hb he => exact .pure (.inr (.error hb he))
      | incomplete =>
        dsimp only; split
        · exact .pure (.inr (.data hij rfl))
        · exact .pure (.inr .incomplete)

/-- Final states of the iterator of `many_till`. -/
inductive EndTillRel (R : I → J → Prop) (W : E → E' → Prop) : EndStateTill I E → EndStateTill J E' → Prop
  | error {b e b' e'} : Slices R b b' → W e e' → EndTillRel R W (.error b e) (.error b' e')
  | incomplete (n) : EndTillRel R W (.incomplete n) (.incomplete n)
  | endSuccess : EndTillRel R W .endSuccess .endSuccess

/-- Iterators of `many_till`. -/
def TillRel (R : I → J → Prop) (W : E → E' → Prop) (x : IterTill I E D) (y : IterTill J E' D) : Prop :=
  EndTillRel R W x.state y.state ∧ Inputs R x.buf y.buf ∧ x.data = y.data

/-- Results of the end test. -/
def PreRel (R : I → J → Prop) (W : E → E' → Prop) (x : Bool × IterTill I E D) (y : Bool × IterTill J E' D) : Prop :=
  x.1 = y.1 ∧ TillRel R W x.2 y.2

theorem endTest {Y : A → A' → Prop} {Z : N → N' → Prop} {W : E → E' → Prop} {q : Parser σ I A N}
    {q' : Parser σ J A' N'} (hq : Mirror R Y Z q q')
    {x : IterTill I E D} {y : IterTill J E' D} (h : TillRel R W x y) :
    BothM (PreRel R W) (Bounded.endTest q x) (Bounded.endTest q' y) := by
  obtain ⟨st, buf, d⟩ := x
  obtain ⟨st', buf', _⟩ := y
  obtain ⟨hs, hb, rfl⟩ := h
  refine BothM.bind (R := Results R Y Z) (fun w => hq _ _ w hb) ?_
  intro r r' hr
  cases hr with
  | data hi ht => exact .pure ⟨rfl, .endSuccess, hi, rfl⟩
  | error he hw => exact .pure ⟨rfl, hs, hb, rfl⟩
  | incomplete => exact .pure ⟨rfl, hs, hb, rfl⟩

theorem iterTillNext {V : U → U' → Prop} {W : E → E' → Prop} {h : HooksTill σ I E D} {h' : HooksTill σ J E' D}
    (hpre : ∀ x y, TillRel R W x y → BothM (PreRel R W) (h.pre x) (h'.pre y)) (hon : h.on = h'.on)
    {p : Parser σ I U E} {p' : Parser σ J U' E'} (hp : Mirror R V W p p')
    {x : IterTill I E D} {y : IterTill J E' D} (hr : TillRel R W x y) :
    BothM (Pairs (Options V) (TillRel R W)) (Bounded.iterTillNext h p x) (Bounded.iterTillNext h' p' y) := by
  refine (hpre x y hr).bind ?_
  rintro ⟨s, st, buf, d⟩ ⟨_, st', buf', _⟩ ⟨rfl, hs, hb, rfl⟩
  dsimp only at hs hb ⊢
  split
  · exact .pure ⟨.none, hs, hb, rfl⟩
  · refine BothM.bind (R := Results R V W) (fun w => hp _ _ w hb) ?_
    intro r r' hr
    cases hr with
    | data hi ht =>
      dsimp only
      rw [hon]
      exact .seq _ fun d => .pure ⟨.some ht, hs, hi, rfl⟩
    | error he hw => exact .pure ⟨.none, .error he hw, hb, rfl⟩
    | incomplete => exact .pure ⟨.none, .incomplete _, hb, rfl⟩

theorem runIterTill {V : U → U' → Prop} {W : E → E' → Prop} {X : T → T' → Prop} {k : Driver σ U T}
    {k' : Driver σ U' T'} (hk : SameCollection V X k k') (d : D) {h : HooksTill σ I E D}
    {h' : HooksTill σ J E' D}
    {fin : T → Input I → D → EndStateTill I E → M σ (ParseResult I T E)}
    {fin' : T' → Input J → D → EndStateTill J E' → M σ (ParseResult J T' E')}
    (hpre : ∀ x y, TillRel R W x y → BothM (PreRel R W) (h.pre x) (h'.pre y)) (hon : h.on = h'.on)
    (hhint : h.sizeHint = h'.sizeHint)
    (hfin : ∀ t t' i j d s s', X t t' → Inputs R i j → EndTillRel R W s s' →
      BothM (Results R X W) (fin t i d s) (fin' t' j d s'))
    {p : Parser σ I U E} {p' : Parser σ J U' E'} (hp : Mirror R V W p p') :
    Mirror R X W (Bounded.runIterTill k d h fin p) (Bounded.runIterTill k' d h' fin' p') := by
  intro i j w hij
  refine BothM.bind
    (fun w => hk _ _ (TillRel R W) _ _ _ _ (fun s s' w hr => iterTillNext hpre hon hp hr w) ?_ _ _ w ?_) ?_ w
  · rintro s s' ⟨_, _, e⟩; dsimp only; rw [e, hhint]
  · exact ⟨.incomplete _, hij, rfl⟩
  · rintro ⟨t, it⟩ ⟨t', it'⟩ ⟨ht, hs, hb, hd⟩
    dsimp only at hs hb hd ht ⊢
    rw [hd]
    exact hfin _ _ _ _ _ _ _ ht hb hs

theorem manyTillWith {V : U → U' → Prop} {W : E → E' → Prop} {X : T → T' → Prop} {Y : A → A' → Prop}
    {Z : N → N' → Prop} (r) {k : Driver σ U T} {k' : Driver σ U' T'} (hk : SameCollection V X k k')
    {p : Parser σ I U E} {p' : Parser σ J U' E'} (hp : Mirror R V W p p')
    {q : Parser σ I A N} {q' : Parser σ J A' N'} (hq : Mirror R Y Z q q') :
    Mirror R X W (Bounded.manyTillWith r k p q) (Bounded.manyTillWith r k' p' q') := by
  cases r with
  | range a b =>
    intro i j w hij
    show Both _ (manyTillRange a b k p q i w) (manyTillRange a b k' p' q' j w)
    unfold manyTillRange
    split
    · refine runIterTill hk _ ?_ ?_ ?_ ?_ hp i j w hij
      · intro x y h
        have key : ∀ {x : IterTill I E (Nat × Nat)} {y : IterTill J E' (Nat × Nat)} (s : Bool),
            TillRel R W x y → BothM (σ := σ) (PreRel R W)
              (if s = true then Pure.pure (true, x) else if x.data.2 == 0 then do
                let (_, x) ← Bounded.endTest q x
                Pure.pure (true, x)
              else Pure.pure (false, x))
              (if s = true then Pure.pure (true, y) else if y.data.2 == 0 then do
                let (_, y) ← Bounded.endTest q' y
                Pure.pure (true, y)
              else Pure.pure (false, y)) := by
          intro x y s h
          split
          · exact .pure ⟨rfl, h⟩
          · rw [h.2.2]
            split
            · refine (endTest hq h).bind ?_
              rintro ⟨_, x⟩ ⟨_, y⟩ ⟨_, h⟩
              exact .pure ⟨rfl, h⟩
            · exact .pure ⟨rfl, h⟩
        unfold hooksTillRange
        dsimp only
        rw [h.2.2]
        split
        · refine (endTest hq h).bind ?_
          rintro ⟨s, x⟩ ⟨_, y⟩ ⟨rfl, h⟩
          exact key s h
        · exact BothM.bind (R := PreRel R W) (.pure ⟨rfl, h⟩) fun _ _ h => by
            obtain ⟨e, h⟩ := h
            rw [e]
            exact key _ h
      · rfl
      · rfl
      · rintro t t' i j ⟨lo, hi⟩ s s' ht hij (⟨hb, he⟩ | n | _) <;> cases lo <;> first
          | exact .panic
          | exact .pure (.data hij ht)
          | exact .pure (.error hb he)
          | exact .pure .incomplete
    · exact .panic
  | from_ n =>
    show Mirror R X W (manyTillFrom n k p q) (manyTillFrom n k' p' q')
    unfold manyTillFrom
    refine runIterTill hk _ ?_ ?_ ?_ ?_ hp
    · intro x y h
      show BothM (PreRel R W) (if x.data == 0 then _ else _) (if y.data == 0 then _ else _)
      rw [h.2.2]
      split
      · exact endTest hq h
      · exact .pure ⟨rfl, h⟩
    · rfl
    · rfl
    · rintro t t' i j lo s s' ht hij (⟨hb, he⟩ | n | _) <;> cases lo <;> first
          | exact .panic
          | exact .pure (.data hij ht)
          | exact .pure (.error hb he)
          | exact .pure .incomplete
  | full =>
    show Mirror R X W (manyTillFull k p q) (manyTillFull k' p' q')
    unfold manyTillFull
    refine runIterTill hk _ ?_ ?_ ?_ ?_ hp
    · intro x y h
      exact endTest hq h
    · rfl
    · rfl
    · rintro t t' i j lo s s' ht hij (⟨hb, he⟩ | n | _) <;> first
          | exact .pure (.data hij ht)
          | exact .pure (.error hb he)
          | exact .pure .incomplete
  | to n =>
    show Mirror R X W (manyTillTo n k p q) (manyTillTo n k' p' q')
    unfold manyTillTo
    refine runIterTill hk _ ?_ ?_ ?_ ?_ hp
    · intro x y h
      refine (endTest hq h).bind ?_
      rintro ⟨s, x⟩ ⟨_, y⟩ ⟨rfl, h⟩
      dsimp only at h ⊢
      split
      · exact .pure ⟨rfl, h⟩
      · rw [h.2.2]; exact .pure ⟨rfl, h⟩
    · rfl
    · rfl
    · rintro t t' i j lo s s' ht hij (⟨hb, he⟩ | n | _) <;> cases lo <;> first
          | exact .panic
          | exact .pure (.data hij ht)
          | exact .pure (.error hb he)
          | exact .pure .incomplete
  | exactly n =>
    show Mirror R X W (manyTillExactly n k p q) (manyTillExactly n k' p' q')
    unfold manyTillExactly
    refine runIterTill hk _ ?_ ?_ ?_ ?_ hp
    · intro x y h
      show BothM (PreRel R W) (if x.data == 0 then _ else _) (if y.data == 0 then _ else _)
      rw [h.2.2]
      split
      · refine (endTest hq h).bind ?_
        rintro ⟨s, x⟩ ⟨_, y⟩ ⟨_, h⟩
        exact .pure ⟨rfl, h⟩
      · exact .pure ⟨rfl, h⟩
    · rfl
    · rfl
    · rintro t t' i j lo s s' ht hij (⟨hb, he⟩ | n | _) <;> cases lo <;> first
          | exact .panic
          | exact .pure (.data hij ht)
          | exact .pure (.error hb he)
          | exact .pure .incomplete

/-! ### Collections -/

theorem collect {V : U → U' → Prop} {X : T → T' → Prop} (c : Collect U T) (c' : Collect U' T')
    (S : c.Acc → c'.Acc → Prop) (hs : Sums S X c.start c'.start)
    (hf : ∀ a b u u', S a b → V u u' → Sums S X (c.feed a u) (c'.feed b u'))
    (he : ∀ a b, S a b → X (c.finish a) (c'.finish b)) : SameCollection (σ := σ) V X c.driver c'.driver := by
  intro It It' Q next next' hint hint' hn _ s s' w h
  revert w
  show BothM _ (fromIter c next s) (fromIter c' next' s')
  unfold fromIter
  revert hs
  generalize c.start = a
  generalize c'.start = b
  intro hs
  cases hs with
  | inr ht => exact .pure ⟨ht, h⟩
  | inl ha =>
    refine BothM.loop (R := Pairs S Q) ?_ ⟨ha, h⟩
    rintro ⟨a, s⟩ ⟨b, s'⟩ ⟨ha, h⟩
    refine BothM.bind (fun w => hn s s' w h) ?_
    rintro ⟨o, s⟩ ⟨o', s'⟩ ⟨ho, h⟩
    cases ho with
    | none => exact .pure (.inr ⟨he _ _ ha, h⟩)
    | some hu =>
      dsimp only
      have := hf _ _ _ _ ha hu
      revert this
      generalize c.feed a _ = x
      generalize c'.feed b _ = y
      intro this
      cases this with
      | inl ha' => exact .pure (.inl ⟨ha', h⟩)
      | inr ht => exact .pure (.inr ⟨ht, h⟩)

theorem vec {V : U → U' → Prop} (minCap room : Nat) :
    SameCollection (σ := σ) V (Slices V) (Driver.vec minCap room) (Driver.vec minCap room) := by
  intro It It' Q next next' hint hint' hn hh s s' w h
  revert w
  show BothM _ (Driver.vec minCap room It next hint s) (Driver.vec minCap room It' next' hint' s')
  unfold Driver.vec
  refine BothM.bind (fun w => hn s s' w h) ?_
  rintro ⟨o, s⟩ ⟨o', s'⟩ ⟨ho, h⟩
  cases ho with
  | none => exact .pure ⟨.nil, h⟩
  | some hu =>
    dsimp only
    rw [hh s s' h]
    refine .seq _ fun cap => ?_
    refine BothM.loop (R := Pairs (Slices V) (Pairs Eq Q)) ?_ ⟨.cons hu .nil, rfl, h⟩
    rintro ⟨acc, cap, s⟩ ⟨acc', _, s'⟩ ⟨ha, rfl, h⟩
    refine BothM.bind (fun w => hn s s' w h) ?_
    rintro ⟨o, s⟩ ⟨o', s'⟩ ⟨ho, h⟩
    dsimp only at ha h ho ⊢
    cases ho with
    | none => exact .pure (.inr ⟨ha.reverse, h⟩)
    | some hu =>
      dsimp only
      rw [hh s s' h, ha.length]
      split
      · exact .seq _ fun cap => .pure (.inl ⟨.cons hu ha, rfl, h⟩)
      · exact .pure (.inl ⟨.cons hu ha, rfl, h⟩)

/-! ### The other combinators -/

theorem option {V : T → T' → Prop} {W : E → E' → Prop} {p : Parser σ I T E} {p' : Parser σ J T' E'} {t t'}
    (hp : Mirror R V W p p') (ht : V t t') : Mirror R V W (Comb.option p t) (Comb.option p' t') := by
  intro i j w hij
  refine BothM.bind (fun w => hp i j w hij) ?_ w
  intro r r' hr
  cases hr with
  | data hi ht => exact .pure (.data hi ht)
  | error => exact .pure (.data hij ht)
  | incomplete =>
    dsimp only
    rw [isLastSlice hij]
    split
    · exact .pure (.data hij ht)
    · exact .pure .incomplete

theorem or {V : T → T' → Prop} {W : E → E' → Prop} {p q : Parser σ I T E} {p' q' : Parser σ J T' E'}
    (hp : Mirror R V W p p') (hq : Mirror R V W q q') : Mirror R V W (Comb.or p q) (Comb.or p' q') := by
  intro i j w hij
  refine BothM.bind (fun w => hp i j w hij) ?_ w
  intro r r' hr
  cases hr with
  | data hi ht => exact .pure (.data hi ht)
  | error => exact fun w => hq i j w hij
  | incomplete =>
    dsimp only
    rw [isLastSlice hij]
    split
    · exact fun w => hq i j w hij
    · exact .pure .incomplete

theorem sepParser {V : U → U' → Prop} {W : E → E' → Prop} {Y : A → A' → Prop} {Z : N → N' → Prop}
    {conv : N → E} {conv' : N' → E'} (hc : ∀ e e', Z e e' → W (conv e) (conv' e')) {p : Parser σ I U E}
    {p' : Parser σ J U' E'} {sep : Parser σ I A N} {sep' : Parser σ J A' N'} (hp : Mirror R V W p p')
    (hs : Mirror R Y Z sep sep') :
    Mirror R V W (Comb.sepParser conv p sep) (Comb.sepParser conv' p' sep') := by
  intro i j w hij
  revert w
  have key : ∀ {r : ParseResult I Unit N} {r' : ParseResult J Unit N'}, Results R Eq Z r r' →
      BothM (Results R V W)
        (do let r ← r.andThen conv (fun i => Comb.withLocal (p i))
            r.inspect (fun _ => modify (fun w => (w.1, true))) : M (σ × Bool) _)
        (do let r ← r'.andThen conv' (fun i => Comb.withLocal (p' i))
            r.inspect (fun _ => modify (fun w => (w.1, true)))) := by
    intro r r' h
    refine BothM.bind (R := Results R V W) ?_ ?_
    · exact resultBind h hc fun i j _ _ hij _ => Twins.withLocal (R := Results R V W) fun w => hp i j w hij
    · intro r r' h
      exact resultInspect h fun _ _ w _ => BothM.refl _ w
  refine BothM.seq _ fun w => ?_
  dsimp only
  split
  · refine (Twins.withLocal (R := Results R Y Z) fun w => hs i j w hij).bind ?_
    intro r r' h
    refine (resultMap (V' := Eq) (f := fun _ => pure ()) (g := fun _ => pure ()) h
      fun _ _ w _ => BothM.refl (pure ()) w).bind ?_
    intro r r' h
    exact key h
  · exact BothM.bind (R := Results R Eq Z) (.pure (.data hij rfl)) fun _ _ h => key h

theorem matchedBy {V : T → T' → Prop} {W : E → E' → Prop} {p : Parser σ I T E} {p' : Parser σ J T' E'}
    (hp : Mirror R V W p p') : Mirror R (Pairs (Slices R) V) W (Comb.matchedBy p) (Comb.matchedBy p') := by
  intro i j w hij
  refine BothM.bind (fun w => hp i j w hij) ?_ w
  intro r r' hr
  cases hr with
  | data hi ht =>
    dsimp only
    rw [length hij, length hi]
    exact .seq _ fun _ => (sliceTo hij.buf _).bind fun _ _ hs => .pure (.data hi ⟨hs, ht⟩)
  | error hb he => exact .pure (.error hb he)
  | incomplete => exact .pure .incomplete

theorem lookAhead {V : T → T' → Prop} {W : E → E' → Prop} {p : Parser σ I T E} {p' : Parser σ J T' E'}
    (hp : Mirror R V W p p') : Mirror R V W (Comb.lookAhead p) (Comb.lookAhead p') := by
  intro i j w hij
  refine BothM.bind (fun w => hp i j w hij) ?_ w
  intro r r' hr
  cases hr with
  | data hi ht => exact .pure (.data hij ht)
  | error hb he => exact .pure (.error hb he)
  | incomplete => exact .pure .incomplete

/-! ### Items -/

theorem unexpected (v) : Errors R (Err.unexpected v) (Err.unexpected v) := by
  cases v
  · exact .generic
  · exact .unexpected

theorem expected (v) {t t'} (h : R t t') : Errors R (Err.expected v t) (Err.expected v t') := by
  cases v
  · exact .generic
  · exact .expected h

/-- The first `n` items, and the rest. -/
theorem split {W : Error I → Error J → Prop} {X : T → T' → Prop} {i : Input I} {j : Input J} (h : Inputs R i j)
    (n : Nat) {mk : List I → T} {mk' : List J → T'} (hm : ∀ s t, Slices R s t → X (mk s) (mk' t)) :
    BothM (σ := σ) (Results R X W)
      (do let r ← Chomp.sliceFrom i.buf n
          let m ← Chomp.sliceTo i.buf n
          pure ((i.replace r).ret (mk m)))
      (do let r ← Chomp.sliceFrom j.buf n
          let m ← Chomp.sliceTo j.buf n
          pure ((j.replace r).ret (mk' m))) :=
  (sliceFrom h.buf n).bind fun _ _ hr => (sliceTo h.buf n).bind fun _ _ hm' =>
    .pure (.data (replace h hr) (hm _ _ hm'))

/-- The first item, and the rest. -/
theorem first {W : Error I → Error J → Prop} {V : T → T' → Prop} {i : Input I} {j : Input J} (h : Inputs R i j)
    {t t'} (ht : V t t') :
    BothM (σ := σ) (Results R V W)
      (do let r ← Chomp.sliceFrom i.buf 1
          pure ((i.replace r).ret t))
      (do let r ← Chomp.sliceFrom j.buf 1
          pure ((j.replace r).ret t')) :=
  (sliceFrom h.buf 1).bind fun _ _ hr => .pure (.data (replace h hr) ht)

/-- Everything. -/
theorem everything {W : Error I → Error J → Prop} {i : Input I} {j : Input J} (h : Inputs R i j) :
    BothM (σ := σ) (Results R (Slices R) W)
      (do let z ← Chomp.sliceTo i.buf 0
          pure ((i.replace z).ret i.buf))
      (do let z ← Chomp.sliceTo j.buf 0
          pure ((j.replace z).ret j.buf)) :=
  (sliceTo h.buf 0).bind fun _ _ hr => .pure (.data (replace h hr) h.buf)

/-- A parser which looks at the first item. -/
theorem one {V : T → T' → Prop} {W : E → E' → Prop} {p : Parser σ I T E} {q : Parser σ J T' E'}
    (h0 : ∀ m, BothM (Results R V W) (p ⟨m, []⟩) (q ⟨m, []⟩))
    (h1 : ∀ m c d s t, R c d → Inputs R ⟨m, c :: s⟩ ⟨m, d :: t⟩ →
      BothM (Results R V W) (p ⟨m, c :: s⟩) (q ⟨m, d :: t⟩)) : Mirror R V W p q := by
  rintro ⟨m, s⟩ ⟨m', t⟩ w ⟨hm, hs⟩
  dsimp only at hm hs
  subst hm
  cases hs with
  | nil => exact h0 m w
  | cons hc hs => exact h1 m _ _ _ _ hc ⟨rfl, .cons hc hs⟩ w

theorem position {f : I → M σ Bool} {g : J → M σ Bool} (h : Same R Eq f g) {s t} (hs : Slices R s t) :
    BothM Eq (Closures.position f s) (Closures.position g t) := by
  induction hs with
  | nil => exact .pure rfl
  | cons h1 _ ih =>
    refine BothM.bind (fun w => h _ _ w h1) ?_
    rintro b _ rfl
    cases b with
    | true => exact .pure rfl
    | false => exact ih.bind fun _ _ e => .pure (by rw [e])

theorem negated {f : I → M σ Bool} {g : J → M σ Bool} (h : Same R Eq f g) :
    Same R Eq (fun c => do let a ← f c; pure (a == false)) (fun c => do let a ← g c; pure (a == false)) :=
  fun a b w hr => BothM.bind (fun w => h a b w hr) (fun _ _ e => .pure (by rw [e])) w

theorem scanPosition {S : A → B → Prop} {f : A → I → M σ (Option A)} {g : B → J → M σ (Option B)}
    (h : ∀ a b, S a b → Same R (Options S) (f a) (g b)) {s t} (hs : Slices R s t) :
    ∀ {a b}, Options S a b → BothM Eq (Closures.scanPosition f a s) (Closures.scanPosition g b t) := by
  induction hs with
  | nil => intro a b hab; cases hab <;> exact .pure rfl
  | cons h1 _ ih =>
    intro a b hab
    cases hab with
    | none => exact .panic
    | some hab =>
      refine BothM.bind (fun w => h _ _ hab _ _ w h1) ?_
      intro a b hab
      cases hab with
      | none => exact .pure rfl
      | some hab => exact (ih (.some hab)).bind fun _ _ e => .pure (by rw [e])

theorem runScannerPosition {S : A → B → Prop} {f : A → I → M σ (Option A)} {g : B → J → M σ (Option B)}
    (h : ∀ a b, S a b → Same R (Options S) (f a) (g b)) {s t} (hs : Slices R s t) :
    ∀ {a b}, S a b →
      BothM (Pairs Eq S) (Closures.runScannerPosition f a s) (Closures.runScannerPosition g b t) := by
  induction hs with
  | nil => intro a b hab; exact .pure ⟨rfl, hab⟩
  | cons h1 _ ih =>
    intro a b hab
    refine BothM.bind (fun w => h _ _ hab _ _ w h1) ?_
    intro a b hab'
    cases hab' with
    | none => exact .pure ⟨rfl, hab⟩
    | some hab => exact (ih hab).bind fun x y e => .pure ⟨by dsimp only; rw [e.1], e.2⟩

theorem mismatch {ne : I → I → M σ Bool} {ne' : J → J → M σ Bool} {a b}
    (h : Slices (fun a b => Same R Eq (ne a) (ne' b)) a b) :
    ∀ {s t}, Slices R s t → BothM Eq (Closures.mismatch ne a s) (Closures.mismatch ne' b t) := by
  induction h with
  | nil => intro s t _; exact .pure rfl
  | cons h1 _ ih =>
    intro s t hs
    cases hs with
    | nil => exact .pure rfl
    | cons h2 hs =>
      refine BothM.bind (fun w => h1 _ _ w h2) ?_
      rintro b _ rfl
      cases b with
      | true => exact .pure rfl
      | false => exact (ih hs).bind fun _ _ e => .pure (by rw [e])

theorem string (v) {ne : I → I → M σ Bool} {ne' : J → J → M σ Bool} {s s'} (hs : Slices R s s')
    (h : Slices (fun a b => Same R Eq (ne a) (ne' b)) s s') :
    Mirror R (Slices R) (Errors R) (Closures.string ne v s) (Closures.string ne' v s') := by
  intro i j w hij
  revert w
  show BothM _ _ _
  unfold Closures.string
  dsimp only
  rw [length hij, hs.length]
  split
  · exact .seq _ fun _ => .pure .incomplete
  · refine (sliceTo hij.buf _).bind fun d d' hd => (mismatch h hd).bind ?_
    rintro m _ rfl
    cases m with
    | none => exact (sliceFrom hij.buf _).bind fun _ _ hr => .pure (.data (replace hij hr) hd)
    | some n =>
      show BothM _ (Err.string v i n s) (Err.string v j n s')
      cases v with
      | true => exact .pure (.error hij.buf (.string hs))
      | false => exact (sliceFrom hij.buf _).bind fun _ _ hr => .pure (.error hr .generic)

theorem weaken {V V' : T → T' → Prop} {W W' : E → E' → Prop} (hv : ∀ t t', V t t' → V' t t')
    (hw : ∀ e e', W e e' → W' e e') {x : Res (ParseResult I T E × σ)} {y : Res (ParseResult J T' E' × σ)}
    (h : Both (Results R V W) x y) : Both (Results R V' W') x y := by
  cases h with
  | ok a b w hr =>
    refine .ok _ _ _ ?_
    cases hr with
    | data hi ht => exact .data hi (hv _ _ ht)
    | error hb he => exact .error hb (hw _ _ he)
    | incomplete => exact .incomplete
  | panic => exact .panic
  | ub => exact .ub
  | div => exact .div

/-! ### Everything -/

theorem _root_.Chomp.Spec.Mirrors.mirrors {V : T → T' → Prop} {W : E → E' → Prop} {p : Parser σ I T E}
    {q : Parser σ J T' E'} (h : Mirrors R V W p q) : Mirror R V W p q := by
  induction h with
  | mirror h => exact h
  | weaken _ hv hw ih =>
    intro i j w hij
    exact weaken hv hw (ih i j w hij)
  | ret ht => exact fun i j w hij => .ok _ _ _ (.data hij ht)
  | err he => exact fun i j w hij => .ok _ _ _ (.error hij.buf he)
  | bind _ hc _ ihp ihf =>
    exact fun i j w hij => BothM.bind (fun w => ihp i j w hij)
      (fun r r' hr => resultBind hr hc fun i j t t' hij ht w => ihf t t' ht i j w hij) w
  | andThen _ hc _ ihp ihf =>
    exact fun i j w hij => BothM.bind (fun w => ihp i j w hij)
      (fun r r' hr => resultBind hr hc fun i j t t' hij ht w => ihf i j w hij) w
  | map _ hf ih =>
    exact fun i j w hij => BothM.bind (fun w => ih i j w hij)
      (fun r r' hr => resultMap hr fun t t' w ht => BothM.pure (hf t t' ht) w) w
  | mapErr _ hf ih =>
    exact fun i j w hij => BothM.bind (fun w => ih i j w hij)
      (fun r r' hr => resultMapErr hr fun t t' w ht => BothM.pure (hf t t' ht) w) w
  | inspect _ hf ih =>
    exact fun i j w hij => BothM.bind (fun w => ih i j w hij) (fun r r' hr => resultInspect hr hf) w
  | effect hx _ ih =>
    exact fun i j w hij => BothM.bind hx (fun a b hab w => ih a b hab i j w hij) w
  | any => exact one (fun _ => .pure .incomplete) fun _ c d _ _ hc hij => first hij hc
  | satisfy v h =>
    refine one (fun _ => .pure .incomplete) fun _ c d _ _ hc hij => ?_
    refine BothM.bind (fun w => h c d w hc) ?_
    rintro b _ rfl
    cases b with
    | true => exact first hij hc
    | false => exact .pure (.error hij.buf (unexpected v))
  | satisfyWith v hf hp =>
    refine one (fun _ => .pure .incomplete) fun _ c d _ _ hc hij => ?_
    refine BothM.bind (fun w => hf c d w hc) fun t t' ht => BothM.bind (fun w => hp t t' w ht) ?_
    rintro b _ rfl
    cases b with
    | true => exact first hij ht
    | false => exact .pure (.error hij.buf (unexpected v))
  | token v ht h =>
    refine one (fun _ => .pure .incomplete) fun _ c d _ _ hc hij => ?_
    refine BothM.bind (fun w => h c d w hc) ?_
    rintro b _ rfl
    cases b with
    | true => exact first hij hc
    | false => exact .pure (.error hij.buf (expected v ht))
  | notToken v h =>
    refine one (fun _ => .pure .incomplete) fun _ c d _ _ hc hij => ?_
    refine BothM.bind (fun w => h c d w hc) ?_
    rintro b _ rfl
    cases b with
    | true => exact first hij hc
    | false => exact .pure (.error hij.buf (unexpected v))
  | peek => exact fun i j w hij => .ok _ _ _ (.data hij hij.buf.head?)
  | peekNext =>
    intro i j w hij
    revert w
    show BothM _ _ _
    unfold Parsers.peekNext
    have := hij.buf.head?
    revert this
    generalize i.buf.head? = a
    generalize j.buf.head? = b
    intro this
    cases this with
    | none => exact .pure .incomplete
    | some h => exact .pure (.data hij h)
  | take n =>
    intro i j w hij
    revert w
    show BothM _ _ _
    unfold Parsers.take
    dsimp only
    rw [length hij]
    split
    · exact Mirror.split hij n fun _ _ h => h
    · exact .seq _ fun _ => .pure .incomplete
  | takeWhile h =>
    refine fun i j w hij => BothM.bind (position (negated h) hij.buf) ?_ w
    rintro m _ rfl
    cases m with
    | some n => exact Mirror.split hij n fun _ _ h => h
    | none =>
      dsimp only
      rw [isLastSlice hij]
      split
      · exact everything hij
      · exact .pure .incomplete
  | takeWhile1 v h =>
    refine fun i j w hij => BothM.bind (position (negated h) hij.buf) ?_ w
    rintro m _ rfl
    cases m with
    | some n =>
      cases n with
      | zero => exact .pure (.error hij.buf (unexpected v))
      | succ n => exact Mirror.split hij (n + 1) fun _ _ h => h
    | none =>
      dsimp only
      rw [isLastSlice hij, length hij]
      split
      · exact everything hij
      · exact .pure .incomplete
  | takeTill h =>
    refine fun i j w hij => BothM.bind (position h hij.buf) ?_ w
    rintro m _ rfl
    cases m with
    | some n => exact Mirror.split hij n fun _ _ h => h
    | none => exact .pure .incomplete
  | scan hs h =>
    refine fun i j w hij => BothM.bind (scanPosition h hij.buf (.some hs)) ?_ w
    rintro m _ rfl
    cases m with
    | some n => exact Mirror.split hij n fun _ _ h => h
    | none => exact .pure .incomplete
  | runScanner hs h =>
    refine fun i j w hij => BothM.bind (runScannerPosition h hij.buf hs) ?_ w
    rintro ⟨m, a⟩ ⟨_, b⟩ ⟨rfl, hab⟩
    cases m with
    | some n => exact Mirror.split hij n fun _ _ h => ⟨h, hab⟩
    | none => exact .pure .incomplete
  | takeRemainder => exact fun i j w hij => everything hij w
  | string v hs h => exact string v hs h
  | eof v =>
    intro i j w hij
    revert w
    show BothM _ _ _
    unfold Parsers.eof
    rw [isLastSlice hij, length hij]
    split
    · exact .pure (.data hij rfl)
    · exact .pure (.error hij.buf (unexpected v))
  | option _ ht ih => exact option ih ht
  | or _ _ ih ih' => exact or ih ih'
  | many r hk _ ih => exact manyWith r hk ih
  | skipMany r _ ih => exact skipMany r ih
  | manyTill r hk _ _ ih ih' => exact manyTillWith r hk ih ih'
  | sepBy hk _ _ hc ih ih' =>
    exact fun i j w hij => Twins.newLocal false (fun w => manyWith .full hk (sepParser hc ih ih') i j w hij) w
  | sepBy1 hk _ _ hc ih ih' =>
    exact fun i j w hij => Twins.newLocal false (fun w => manyWith (.from_ 1) hk (sepParser hc ih ih') i j w hij) w
  | matchedBy _ ih => exact matchedBy ih
  | lookAhead _ ih => exact lookAhead ih

end Chomp.Mirror
