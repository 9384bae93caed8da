import Verif.Spec.Recursive
import Verif.Lemmas.Productive

/-
A run which returns makes finitely many calls and depends on nothing but their results. This is proved for
every combinator; the calls which may be made and the inputs which may be seen are parameters.
-/

namespace Chomp

open Spec

namespace Recursive

variable {K : Type} {σ I : Type} {T E : K → Type}

/-- `x`, a run with the functions `q`, does not return, or it depends on finitely many calls, all of which
return and satisfy `A`. -/
def Dep (q : Fns σ I T E) (A : K × Input I × σ → Prop) (x : Fns σ I T E → Res R) : Prop :=
  x q = .div ∨ ∃ l : List (K × Input I × σ),
    (∀ c, c ∈ l → A c ∧ q c.1 c.2.1 c.2.2 ≠ .div) ∧
    ∀ q' : Fns σ I T E, (∀ c, c ∈ l → q' c.1 c.2.1 c.2.2 = q c.1 c.2.1 c.2.2) → x q' = x q

variable {q : Fns σ I T E} {A : K × Input I × σ → Prop}

theorem Dep.mono {B : K × Input I × σ → Prop} {x : Fns σ I T E → Res R} (h : Dep q A x)
    (hAB : ∀ c, A c → B c) : Dep q B x :=
  h.imp id fun ⟨l, h1, h2⟩ => ⟨l, fun c hc => ⟨hAB c (h1 c hc).1, (h1 c hc).2⟩, h2⟩

theorem dep_const (x : Res R) : Dep q A (fun _ => x) := .inr ⟨[], nofun, fun _ _ => rfl⟩

theorem dep_call (k : K) (i : Input I) (w : σ) (h : A (k, i, w)) : Dep q A (fun q => q k i w) := by
  by_cases hd : q k i w = .div
  · exact .inl hd
  · refine .inr ⟨[(k, i, w)], fun c hc => ?_, fun q' hq => hq (k, i, w) (List.mem_singleton.mpr rfl)⟩
    rw [List.mem_singleton.mp hc]
    exact ⟨h, hd⟩

theorem dep_bind {x : Fns σ I T E → Res R} {k : Fns σ I T E → R → Res R'} (hx : Dep q A x)
    (hk : ∀ y, x q = .ok y → Dep q A (fun q => k q y)) : Dep q A (fun q => x q >>= k q) := by
  rcases hx with hx | ⟨l, h1, h2⟩
  · left; show (x q >>= k q) = _; rw [hx]; rfl
  · match hy : x q with
    | .ok y =>
      rcases hk y hy with hk | ⟨l', h1', h2'⟩
      · left; show (x q >>= k q) = _; rw [hy]; exact hk
      · refine .inr ⟨l ++ l', fun c hc => ?_, fun q' hq => ?_⟩
        · rcases List.mem_append.mp hc with hc | hc
          · exact h1 c hc
          · exact h1' c hc
        · show (x q' >>= k q') = (x q >>= k q)
          rw [h2 q' fun c hc => hq c (List.mem_append_left _ hc), hy]
          exact h2' q' fun c hc => hq c (List.mem_append_right _ hc)
    | .panic => exact .inr ⟨l, h1, fun q' hq => by dsimp only; rw [h2 q' hq, hy]; rfl⟩
    | .ub => exact .inr ⟨l, h1, fun q' hq => by dsimp only; rw [h2 q' hq, hy]; rfl⟩
    | .div => left; show (x q >>= k q) = _; rw [hy]; rfl

/-- What is done with the result does not depend on the functions. -/
theorem dep_post {x : Fns σ I T E → Res R} {k : R → Res R'} (hx : Dep q A x) :
    Dep q A (fun q => x q >>= k) :=
  dep_bind hx fun y _ => dep_const (k y)

theorem dep_via {x : Fns σ I T E → Res R} {g : Res R → Res R'} (hg : g .div = .div) (hx : Dep q A x) :
    Dep q A (fun q => g (x q)) := by
  rcases hx with hx | ⟨l, h1, h2⟩
  · left; show g (x q) = _; rw [hx, hg]
  · exact .inr ⟨l, h1, fun q' hq => by dsimp only; rw [h2 q' hq]⟩

theorem dep_congr {x y : Fns σ I T E → Res R} (h : ∀ q, x q = y q) (hy : Dep q A y) : Dep q A x := by
  rw [funext h]; exact hy

theorem dep_loop {step : Fns σ I T E → S → M τ (S ⊕ R)} (Inv : S → τ → Prop)
    (hs : ∀ s w, Inv s w → Dep q A (fun q => step q s w))
    (hk : ∀ s w s' w', Inv s w → step q s w = .ok (.inl s', w') → Inv s' w')
    {s : S} {w : τ} (h : Inv s w) : Dep q A (fun q => loop (step q) s w) := by
  by_cases hd : loop (step q) s w = .div
  · exact .inl hd
  · have hr := loop_run s w hd
    generalize hz : loop (step q) s w = z at hr
    clear hz hd
    induction hr with
    | brk e =>
      rename_i s w r w'
      refine dep_congr (fun q => loop_apply _ _ _) (dep_bind (hs s w h) fun y hy => ?_)
      rw [e] at hy; cases hy
      exact dep_const _
    | panic e =>
      rename_i s w
      exact dep_congr (fun q => loop_apply _ _ _) (dep_bind (hs s w h) fun y hy => by rw [e] at hy; cases hy)
    | ub e =>
      rename_i s w
      exact dep_congr (fun q => loop_apply _ _ _) (dep_bind (hs s w h) fun y hy => by rw [e] at hy; cases hy)
    | cont e _ ih =>
      rename_i s w s' w' o _
      refine dep_congr (fun q => loop_apply _ _ _) (dep_bind (hs s w h) fun y hy => ?_)
      rw [e] at hy; cases hy
      exact ih (hk _ _ _ _ h e)

/-! ### The combinators -/

/-- The inputs on which an iteration continues are among those which may be seen. -/
def Keeps (Inv : Input I → τ → Prop) (p : Parser τ I U N) : Prop :=
  ∀ i w i' t w', Inv i w → p i w = .ok (.data i' t, w') → Inv i' w'

theorem dep_core {Inv : Input I → τ → Prop} {p : Fns σ I T E → Parser τ I U N}
    (hp : ∀ i w, Inv i w → Dep q A (fun q => p q i w)) (hk : Keeps Inv (p q)) (c : Collect U V)
    (lo : Nat) (hi : Option Nat) {i : Input I} {w : τ} (h : Inv i w) :
    Dep q A (fun q => Rep.core c (p q) lo hi i w) := by
  unfold Rep.core
  cases c.start with
  | inr t => exact dep_const _
  | inl a =>
    refine dep_loop (Inv := fun s w => Inv s.2.1 w) ?_ ?_ h
    · rintro ⟨a, i, lo, hi⟩ w h
      unfold Rep.step
      dsimp only
      by_cases h0 : hi = some 0
      · exact dep_congr (fun _ => if_pos h0) (dep_const _)
      · exact dep_congr (fun _ => if_neg h0) (dep_post (hp i w h))
    · intro s w s' w' h e
      obtain ⟨_, _, v, hv⟩ := Rep.step_inl e
      exact hk _ _ _ _ _ h hv

theorem dep_skip {Inv : Input I → τ → Prop} {p : Fns σ I T E → Parser τ I U N}
    (hp : ∀ i w, Inv i w → Dep q A (fun q => p q i w)) (hk : Keeps Inv (p q)) (z : Bool)
    (lo hi : Nat) {i : Input I} {w : τ} (h : Inv i w) :
    Dep q A (fun q => loop (Rep.skipStep z (p q)) (i, lo, hi) w) := by
  refine dep_loop (Inv := fun s w => Inv s.1 w) ?_ ?_ h
  · rintro ⟨i, lo, hi⟩ w h
    unfold Rep.skipStep
    dsimp only
    by_cases h0 : hi = 0
    · exact dep_congr (fun _ => if_pos h0) (dep_const _)
    · exact dep_congr (fun _ => if_neg h0) (dep_post (hp i w h))
  · rintro ⟨i, lo, hi⟩ w s' w' h e
    unfold Rep.skipStep at e
    dsimp only at e h
    split at e
    · cases e
    · match hr : p q i w, e with
      | .ok (.data b v, w1), e => cases e; exact hk _ _ _ _ _ h hr

theorem dep_many {Inv : Input I → τ → Prop} {p : Fns σ I T E → Parser τ I U N}
    (hp : ∀ i w, Inv i w → Dep q A (fun q => p q i w)) (hk : Keeps Inv (p q)) (r)
    (c : Collect U V) {i : Input I} {w : τ} (h : Inv i w) :
    Dep q A (fun q => Bounded.many r c (p q) i w) := by
  by_cases ho : Rep.ok r
  · exact dep_congr (fun q => by rw [Rep.many_eq ho]) (dep_core hp hk c _ _ h)
  · refine dep_congr (y := fun _ => .panic) (fun q => ?_) (dep_const _)
    rcases Rep.many_shapes r c (p q) with ⟨lo, hi, e⟩ | ⟨hn, e⟩
    · cases r with
      | range a b =>
        have h' : ¬ a ≤ b := ho
        simp [Bounded.many, Bounded.manyWith, Bounded.manyRange, h']
      | _ => exact absurd True.intro ho
    · rw [e]

theorem dep_skipMany {Inv : Input I → τ → Prop} {p : Fns σ I T E → Parser τ I U N}
    (hp : ∀ i w, Inv i w → Dep q A (fun q => p q i w)) (hk : Keeps Inv (p q)) (r)
    {i : Input I} {w : τ} (h : Inv i w) : Dep q A (fun q => Bounded.skipMany r (p q) i w) := by
  cases r with
  | range a b =>
    by_cases hab : a ≤ b
    · exact dep_congr (fun q => Rep.skipManyRange_eq hab (p q) i w) (dep_skip hp hk false a (b - 1) h)
    · refine dep_congr (y := fun _ => .panic) (fun q => ?_) (dep_const _)
      simp [Bounded.skipMany, Bounded.skipManyRange, hab]
  | exactly n => exact dep_congr (fun q => Rep.skipManyExactly_loop n (p q) i w) (dep_skip hp hk true n n h)
  | from_ n =>
    exact dep_congr (fun q => by rw [Rep.skipMany_eq (by exact True.intro)]) (dep_core hp hk _ _ _ h)
  | full => exact dep_congr (fun q => by rw [Rep.skipMany_eq (by exact True.intro)]) (dep_core hp hk _ _ _ h)
  | to n => exact dep_congr (fun q => by rw [Rep.skipMany_eq (by exact True.intro)]) (dep_core hp hk _ _ _ h)

theorem dep_test {e : Fns σ I T E → Parser τ I V N} {i : Input I}
    (he : ∀ w, Dep q A (fun q => e q i w)) : ∀ n w, Dep q A (fun q => Till.test (e q) n i w) := by
  intro n
  induction n with
  | zero => intro w; exact dep_const _
  | succ n ih =>
    intro w
    refine dep_bind (he w) fun y _ => ?_
    obtain ⟨y, w'⟩ := y
    cases y with
    | data b t => exact dep_const _
    | error b e => exact ih w'
    | incomplete n => exact ih w'

theorem dep_till {Inv : Input I → Prop} {p : Fns σ I T E → Parser τ I U N}
    {e : Fns σ I T E → Parser τ I V N'}
    (hp : ∀ i w, Inv i → Dep q A (fun q => p q i w)) (he : ∀ i w, Inv i → Dep q A (fun q => e q i w))
    (hk : Keeps (fun i _ => Inv i) (p q)) (r) (c : Collect U T') {i : Input I} {w : τ} (h : Inv i) :
    Dep q A (fun q => Bounded.manyTill r c (p q) (e q) i w) := by
  by_cases ho : Rep.ok r
  · refine dep_congr (fun q => by rw [Till.manyTill_eq ho]) ?_
    unfold Till.core
    cases c.start with
    | inr t => exact dep_const _
    | inl a =>
      refine dep_loop (Inv := fun s _ => Inv s.2.1) ?_ ?_ h
      · rintro ⟨a, i, lo, hi⟩ w h
        unfold Till.step
        dsimp only
        refine dep_bind (dep_test (fun w => he i w h) _ w) fun y _ => ?_
        obtain ⟨y, w'⟩ := y
        cases y with
        | some b => exact dep_const _
        | none =>
          dsimp only
          by_cases h0 : hi = some 0
          · exact dep_congr (fun _ => if_pos h0) (dep_const _)
          · exact dep_congr (fun _ => if_neg h0) (dep_post (hp i w' h))
      · intro s w s' w' h e
        obtain ⟨_, _, v, w0, hv⟩ := Till.step_inl e
        exact hk _ _ _ _ _ h hv
  · refine dep_congr (y := fun _ => .panic) (fun q => ?_) (dep_const _)
    cases r with
    | range a b =>
      have h' : ¬ a ≤ b := ho
      simp [Bounded.manyTill, Bounded.manyTillWith, Bounded.manyTillRange, h']
    | _ => exact absurd True.intro ho

theorem dep_bindP {p : Fns σ I T E → Parser σ I U N} {conv : N → N'}
    {f : Fns σ I T E → U → Parser σ I V N'} {i : Input I} {w : σ}
    (hp : Dep q A (fun q => p q i w))
    (hf : ∀ j t w', p q i w = .ok (.data j t, w') → Dep q A (fun q => f q t j w')) :
    Dep q A (fun q => Parser.bind conv (p q) (f q) i w) := by
  refine dep_bind (x := fun q => p q i w) hp fun y hy => ?_
  obtain ⟨y, w'⟩ := y
  cases y with
  | data j t => exact dep_post (hf j t w' hy)
  | error b e => exact dep_const _
  | incomplete n => exact dep_const _

theorem dep_or {p r : Fns σ I T E → Parser σ I U N} {i : Input I} {w : σ}
    (hp : Dep q A (fun q => p q i w)) (hr : ∀ w, Dep q A (fun q => r q i w)) :
    Dep q A (fun q => Comb.or (p q) (r q) i w) := by
  refine dep_bind (x := fun q => p q i w) hp fun y _ => ?_
  obtain ⟨y, w'⟩ := y
  cases y with
  | data j t => exact dep_const _
  | error b e => exact hr w'
  | incomplete n =>
    dsimp only
    cases i.isLastSlice with
    | true => exact hr w'
    | false => exact dep_const _

theorem dep_sepThen {p : Fns σ I T E → Parser σ I U N} {sep : Fns σ I T E → Parser σ I V N'}
    (conv : N' → N) {i : Input I} {w : σ} (hs : Dep q A (fun q => sep q i w))
    (hp : ∀ j t w', sep q i w = .ok (.data j t, w') → Dep q A (fun q => p q j w')) :
    Dep q A (fun q => sepThen conv (p q) (sep q) i w) := by
  refine dep_congr (y := fun q => sep q i w >>= fun y => match y with
    | (.data k _, w1) => p q k w1
    | (.error b e, w1) => .ok (.error b (conv e), w1)
    | (.incomplete n, w1) => .ok (.incomplete n, w1)) (fun q => ?_) (dep_bind hs fun y hy => ?_)
  · unfold sepThen
    cases sep q i w with
    | ok y => obtain ⟨y, w'⟩ := y; cases y <;> rfl
    | _ => rfl
  · obtain ⟨y, w'⟩ := y
    cases y with
    | data j t => exact hp j t w' hy
    | error b e => exact dep_const _
    | incomplete n => exact dep_const _

/-- `sep` is used after an item has been read only. -/
theorem dep_sepBy {Inv : Input I → Bool → Prop} {p : Fns σ I T E → Parser σ I U N}
    {sep : Fns σ I T E → Parser σ I V N'} (conv : N' → N)
    (hp : ∀ i b w, Inv i b → Dep q A (fun q => p q i w))
    (hs : ∀ i w, Inv i true → Dep q A (fun q => sep q i w))
    (hkp : ∀ i b w i' t w', Inv i b → p q i w = .ok (.data i' t, w') → Inv i' true)
    (hks : ∀ i w i' t w', Inv i true → sep q i w = .ok (.data i' t, w') → Inv i' true)
    (r) (c : Collect U T') {i : Input I} {w : σ} (h : Inv i false) :
    Dep q A (fun q => Comb.newLocal false (Bounded.many r c (Comb.sepParser conv (p q) (sep q)) i) w) := by
  refine dep_congr (fun q => Sep.newLocal_eq _ _ _) (dep_via (g := Sep.unflag) rfl ?_)
  refine dep_many (Inv := fun i w => Inv i w.2) ?_ ?_ r c h
  · rintro i ⟨w, b⟩ h
    refine dep_congr (fun q => Sep.sepParser_eq conv (p q) (sep q) i w b) ?_
    refine dep_via (g := Sep.flag b) rfl ?_
    cases b with
    | false => exact hp i false w h
    | true =>
      exact dep_sepThen conv (hs i w h) fun j t w' e => hp j true w' (hks _ _ _ _ _ h e)
  · rintro i ⟨w, b⟩ i' t ⟨w', b'⟩ h e
    rw [Sep.sepParser_eq] at e
    obtain ⟨e1, rfl⟩ := Sep.flag_data.mp e
    cases b with
    | false => exact hkp _ _ _ _ _ _ h e1
    | true =>
      rw [if_pos rfl] at e1
      unfold sepThen at e1
      match hx : sep q i w, e1 with
      | .ok (.data k v, w1), e1 => exact hkp _ _ _ _ _ _ (hks _ _ _ _ _ h hx) e1

/-! ### Bodies -/

theorem body_dep {a : Allow} {x : Fns σ I T E → Parser σ I T' E'} (h : Body a x) (q : Fns σ I T E) :
    ∀ i w, Dep q (fun _ => True) (fun q => x q i w) := by
  have keeps : ∀ {U N : Type} (p : Parser σ I U N), Keeps (fun _ _ => True) p := fun _ => fun _ _ _ _ _ _ _ => trivial
  induction h with
  | call k => exact fun i w => dep_call k i w trivial
  | const _ => exact fun i w => dep_const _
  | bind _ _ ihp ihf => exact fun i w => dep_bindP (ihp i w) fun j t w' _ => ihf t j w'
  | andThen _ _ ihp ihr =>
    exact fun i w => dep_bindP (f := fun q _ => _) (ihp i w) fun j _ w' _ => ihr j w'
  | map f _ ih => exact fun i w => dep_post (ih i w)
  | mapErr f _ ih => exact fun i w => dep_post (ih i w)
  | inspect f _ _ ih => exact fun i w => dep_post (ih i w)
  | effect _ _ ih => exact fun i w => dep_bind (dep_const _) fun y _ => ih y.1 i y.2
  | mapM f _ _ ih => exact fun i w => dep_post (ih i w)
  | mapErrM f _ _ ih => exact fun i w => dep_post (ih i w)
  | count n c _ ih => exact fun i w => dep_many (fun i w _ => ih i w) (keeps _) (.exactly n) c trivial
  | option t _ ih => exact fun i w => dep_post (ih i w)
  | or _ _ ihp ihr => exact fun i w => dep_or (ihp i w) fun w => ihr i w
  | many c _ ih => exact fun i w => dep_many (fun i w _ => ih i w) (keeps _) .full c trivial
  | many1 c _ ih => exact fun i w => dep_many (fun i w _ => ih i w) (keeps _) (.from_ 1) c trivial
  | sepBy conv c _ _ ihp ihs =>
    exact fun i w => dep_sepBy (Inv := fun _ _ => True) conv (fun i _ w _ => ihp i w) (fun i w _ => ihs i w)
      (fun _ _ _ _ _ _ _ _ => trivial) (fun _ _ _ _ _ _ _ => trivial) .full c trivial
  | sepBy1 conv c _ _ ihp ihs =>
    exact fun i w => dep_sepBy (Inv := fun _ _ => True) conv (fun i _ w _ => ihp i w) (fun i w _ => ihs i w)
      (fun _ _ _ _ _ _ _ _ => trivial) (fun _ _ _ _ _ _ _ => trivial) (.from_ 1) c trivial
  | manyTill c _ _ _ ihp ihe =>
    exact fun i w => dep_till (Inv := fun _ => True) (fun i w _ => ihp i w) (fun i w _ => ihe i w)
      (keeps _) .full c trivial
  | skipMany _ ih => exact fun i w => dep_skipMany (fun i w _ => ih i w) (keeps _) .full trivial
  | skipMany1 _ ih => exact fun i w => dep_skipMany (fun i w _ => ih i w) (keeps _) (.from_ 1) trivial
  | matchedBy _ ih => exact fun i w => dep_post (ih i w)
  | lookAhead _ ih => exact fun i w => dep_post (ih i w)
  | boundedMany r c _ _ ih => exact fun i w => dep_many (fun i w _ => ih i w) (keeps _) r c trivial
  | boundedSkipMany r _ _ ih => exact fun i w => dep_skipMany (fun i w _ => ih i w) (keeps _) r trivial
  | boundedManyTill r c _ _ _ _ ihp ihe =>
    exact fun i w => dep_till (Inv := fun _ => True) (fun i w _ => ihp i w) (fun i w _ => ihe i w)
      (keeps _) r c trivial

theorem body_built {a : Allow} {x : Fns σ I T E → Parser σ I T' E'} (h : Body a x) {q : Fns σ I T E}
    (hq : ∀ k, Built a (q k)) : Built a (x q) := by
  induction h with
  | call k => exact hq k
  | const h => exact h
  | bind _ _ ihp ihf => exact .bind ihp ihf
  | andThen _ _ ihp ihr => exact .andThen ihp ihr
  | map f _ ih => exact .map f ih
  | mapErr f _ ih => exact .mapErr f ih
  | inspect f hf _ ih => exact .inspect f hf ih
  | effect hg _ ih => exact .effect hg ih
  | mapM f hf _ ih => exact .mapM f hf ih
  | mapErrM f hf _ ih => exact .mapErrM f hf ih
  | count n c _ ih => exact .count n c ih
  | option t _ ih => exact .option t ih
  | or _ _ ihp ihr => exact .or ihp ihr
  | many c _ ih => exact .many c ih
  | many1 c _ ih => exact .many1 c ih
  | sepBy conv c _ _ ihp ihs => exact .sepBy conv c ihp ihs
  | sepBy1 conv c _ _ ihp ihs => exact .sepBy1 conv c ihp ihs
  | manyTill c h _ _ ihp ihe => exact .manyTill c (fun ha => h ha q) ihp ihe
  | skipMany _ ih => exact .skipMany ih
  | skipMany1 _ ih => exact .skipMany1 ih
  | matchedBy _ ih => exact .matchedBy ih
  | lookAhead _ ih => exact .lookAhead ih
  | boundedMany r c hr _ ih => exact .boundedMany r c hr ih
  | boundedSkipMany r hr _ ih => exact .boundedSkipMany r hr ih
  | boundedManyTill r c h hr _ _ ihp ihe => exact .boundedManyTill r c h hr ihp ihe

/-- Every run depends on finitely many calls. -/
def Finitary (F : Fns σ I T E → Fns σ I T E) : Prop :=
  ∀ q k i w, Dep q (fun _ => True) (fun q => F q k i w)

theorem Finitary.mono {F : Fns σ I T E → Fns σ I T E} (hF : Finitary F) {q q' : Fns σ I T E}
    (h : ∀ k, LessDefined (q k) (q' k)) (k : K) : LessDefined (F q k) (F q' k) := by
  intro i w
  rcases hF q k i w with hd | ⟨l, h1, h2⟩
  · exact .inl hd
  · exact .inr (h2 q' fun c hc => ((h c.1 c.2.1 c.2.2).resolve_left (h1 c hc).2).symm).symm

theorem LessDefined.refl (p : Parser σ I T' E') : LessDefined p p := fun _ _ => .inr rfl

theorem LessDefined.trans {p p' p'' : Parser σ I T' E'} (h : LessDefined p p') (h' : LessDefined p' p'') :
    LessDefined p p'' := by
  intro i w
  rcases h i w with h | h
  · exact .inl h
  · rw [h]; exact h' i w

theorem nested_succ {F : Fns σ I T E → Fns σ I T E} (hF : Finitary F) (n : Nat) (k : K) :
    LessDefined (nested F n k) (nested F (n + 1) k) := by
  induction n generalizing k with
  | zero => exact fun _ _ => .inl rfl
  | succ n ih => exact hF.mono ih k

theorem nested_le {F : Fns σ I T E → Fns σ I T E} (hF : Finitary F) {m n : Nat} (h : m ≤ n) (k : K) :
    LessDefined (nested F m k) (nested F n k) := by
  induction h with
  | refl => exact LessDefined.refl _
  | step _ ih => exact LessDefined.trans ih (nested_succ hF _ k)

theorem nested_agree {F : Fns σ I T E → Fns σ I T E} (hF : Finitary F) {m n : Nat} {k : K} {i : Input I}
    {w : σ} (hm : nested F m k i w ≠ .div) (hn : nested F n k i w ≠ .div) :
    nested F m k i w = nested F n k i w := by
  rcases Nat.le_total m n with h | h
  · exact (nested_le hF h k i w).resolve_left hm
  · exact ((nested_le hF h k i w).resolve_left hn).symm

open Classical in
/-- The functions with bodies `F`. -/
noncomputable def meaning (F : Fns σ I T E → Fns σ I T E) : Fns σ I T E := fun k i w =>
  if h : ∃ n, nested F n k i w ≠ .div then nested F h.choose k i w else .div

theorem meaning_means {F : Fns σ I T E → Fns σ I T E} (hF : Finitary F) : Means F (meaning F) := by
  intro k i w r hr
  unfold meaning
  split
  · rename_i h
    constructor
    · intro e; exact ⟨_, e⟩
    · rintro ⟨n, rfl⟩; exact nested_agree hF h.choose_spec hr
  · rename_i h
    constructor
    · intro e; exact absurd e.symm hr
    · rintro ⟨n, rfl⟩; exact absurd ⟨n, hr⟩ h

/-- For finitely many calls there is a depth which suffices for all of them. -/
theorem Means.enough {F : Fns σ I T E → Fns σ I T E} (hF : Finitary F) {p : Fns σ I T E} (hp : Means F p)
    (l : List (K × Input I × σ)) :
    ∃ n, ∀ m, n ≤ m → ∀ c, c ∈ l → nested F m c.1 c.2.1 c.2.2 = p c.1 c.2.1 c.2.2 := by
  induction l with
  | nil => exact ⟨0, fun _ _ c hc => nomatch hc⟩
  | cons x l ih =>
    obtain ⟨n, hn⟩ := ih
    by_cases hd : p x.1 x.2.1 x.2.2 = .div
    · refine ⟨n, fun m hm c hc => ?_⟩
      rcases List.mem_cons.mp hc with rfl | hc
      · rw [hd]
        refine Classical.byContradiction fun hne => ?_
        have := (hp c.1 c.2.1 c.2.2 _ hne).mpr ⟨m, rfl⟩
        exact hne (this.symm.trans hd)
      · exact hn m hm c hc
    · obtain ⟨n', hn'⟩ := (hp x.1 x.2.1 x.2.2 _ hd).mp rfl
      refine ⟨max n n', fun m hm c hc => ?_⟩
      rcases List.mem_cons.mp hc with rfl | hc
      · have := nested_le hF (show n' ≤ m by omega) c.1 c.2.1 c.2.2
        rw [hn'] at this
        exact (this.resolve_left hd).symm
      · exact hn m (by omega) c hc

theorem Means.nested_lt {F : Fns σ I T E → Fns σ I T E} {p : Fns σ I T E} (hp : Means F p) (n : Nat)
    (k : K) : LessDefined (nested F n k) (p k) := by
  intro i w
  by_cases hd : nested F n k i w = .div
  · exact .inl hd
  · exact .inr ((hp k i w _ hd).mpr ⟨n, rfl⟩).symm

theorem Means.eq {F : Fns σ I T E → Fns σ I T E} (hF : Finitary F) {p : Fns σ I T E} (hp : Means F p)
    (k : K) : p k = F p k := by
  funext i w
  by_cases hd : p k i w = .div
  · rw [hd]
    refine (Classical.byContradiction fun hne => ?_)
    rcases hF p k i w with h | ⟨l, h1, h2⟩
    · exact hne h.symm
    · obtain ⟨n, hn⟩ := Means.enough hF hp l
      have e : nested F (n + 1) k i w = F p k i w := h2 _ (hn n (Nat.le_refl _))
      have := (hp k i w _ (fun h => hne h.symm)).mpr ⟨_, e⟩
      exact hne (hd.symm.trans this)
  · obtain ⟨n, hn⟩ := (hp k i w _ hd).mp rfl
    cases n with
    | zero => exact absurd hn.symm hd
    | succ n =>
      rw [← hn]
      refine (hF.mono (q' := p) (Means.nested_lt hp n) k i w).resolve_left ?_
      intro e
      exact hd (hn.symm.trans e)

theorem Means.least {F : Fns σ I T E → Fns σ I T E} (hF : Finitary F) {p : Fns σ I T E} (hp : Means F p)
    {q : Fns σ I T E} (hq : ∀ k, q k = F q k) (k : K) : LessDefined (p k) (q k) := by
  have key : ∀ n k, LessDefined (nested F n k) (q k) := by
    intro n
    induction n with
    | zero => exact fun _ _ _ => .inl rfl
    | succ n ih => intro k; rw [hq k]; exact hF.mono ih k
  intro i w
  by_cases hd : p k i w = .div
  · exact .inl hd
  · obtain ⟨n, hn⟩ := (hp k i w _ hd).mp rfl
    right
    rw [← hn]
    exact (key n k i w).resolve_left (fun e => hd (hn.symm.trans e))

theorem nested_built {a : Allow} {F : Fns σ I T E → Fns σ I T E} (h : ∀ k, Body a (fun q => F q k)) (n : Nat)
    (k : K) : Built a (nested F n k) := by
  induction n generalizing k with
  | zero => exact .endless
  | succ n ih => exact body_built (h k) ih

theorem means_built {a : Allow} {F : Fns σ I T E → Fns σ I T E} (h : ∀ k, Body a (fun q => F q k))
    {p : Fns σ I T E} (hp : Means F p) (k : K) : Built a (p k) := by
  have hF : Finitary F := fun q k => body_dep (h k) q
  have he := fun l : List (Input I × σ) => Means.enough hF hp (l.map fun x : Input I × σ => (k, x))
  refine .unfolds (fun l => nested F (he l).choose k) (fun l x hx => ?_) (fun l => nested_built h _ k)
  exact (he l).choose_spec _ (Nat.le_refl _) (k, x) (List.mem_map.mpr ⟨x, hx, rfl⟩)

end Recursive

end Chomp
