import Verif.Rust.Till

/-
The texts of `bounded::many`, `bounded::many_till` and of the repeating combinators of /repo/src/combinators/mod.rs do
what their models say.
-/

set_option linter.unusedSimpArgs false

namespace Chomp

/-- A `Collect` as a `Consumer`. -/
def Collect.consumer (c : Collect U T) : Consumer U T where
  State := c.Acc ⊕ T
  start := c.start
  ask s := match s with
    | .inl a => .next (fun o => match o with
      | some u => c.feed a u
      | none => .inr (c.finish a))
    | .inr t => .done t

theorem Collect.consumer_driver (c : Collect U T) : (c.consumer.driver : Driver σ U T) = c.driver := by
  funext It next hint it w
  rw [Consumer.driver, Collect.driver, fromIter]
  show loop _ (c.start, it) w = _
  cases hs : c.start with
  | inr t =>
    exact (loop_apply (S := c.consumer.State × It) _ _ _).trans rfl
  | inl a =>
    refine loop_sim (fun s1 w1 (s2 : c.Acc × It) w2 => s1 = (.inl s2.1, s2.2) ∧ w1 = w2) (· = ·) rfl
      (fun s1 w1 s2 w2 hR => ?_) ⟨rfl, rfl⟩
    obtain ⟨rfl, rfl⟩ := hR
    obtain ⟨a, it⟩ := s2
    match hn : next it w1 with
    | .ok ((some u, it'), w') =>
      match hf : c.feed a u with
      | .inl a' =>
        refine .inl ⟨(.inl a', it'), w', (a', it'), w', ?_, ?_, rfl, rfl⟩
        · show Res.bind (next it w1) _ = _
          rw [hn]
          show Res.ok ((Sum.inl (c.feed a u, it') : _ ⊕ T × It), w') = _
          rw [hf]
          rfl
        · show Res.bind (next it w1) _ = _
          rw [hn]
          show (match c.feed a u with
            | .inl a' => pure (.inl (a', it'))
            | .inr t => pure (.inr (t, it')) : M σ ((c.Acc × It) ⊕ (T × It))) w' = _
          rw [hf]
          rfl
      | .inr t =>
        refine .inr ?_
        rw [loop_apply, loop_apply]
        change Res.bind (Res.bind (next it w1) _) _ = Res.bind (Res.bind (next it w1) _) _
        rw [hn]
        show loop _ (c.feed a u, it') w' = Res.bind ((match c.feed a u with
            | .inl a' => pure (.inl (a', it'))
            | .inr t => pure (.inr (t, it')) : M σ ((c.Acc × It) ⊕ (T × It))) w') _
        rw [hf]
        exact (loop_apply (S := c.consumer.State × It) _ _ _).trans rfl
    | .ok ((none, it'), w') =>
      refine .inr ?_
      rw [loop_apply, loop_apply]
      change Res.bind (Res.bind (next it w1) _) _ = Res.bind (Res.bind (next it w1) _) _
      rw [hn]
      show loop _ (Sum.inr (c.finish a), it') w' = _
      exact (loop_apply (S := c.consumer.State × It) _ _ _).trans rfl
    | .panic =>
      refine .inr ?_
      rw [loop_apply, loop_apply]
      change Res.bind (Res.bind (next it w1) _) _ = Res.bind (Res.bind (next it w1) _) _
      rw [hn]
      rfl
    | .ub =>
      refine .inr ?_
      rw [loop_apply, loop_apply]
      change Res.bind (Res.bind (next it w1) _) _ = Res.bind (Res.bind (next it w1) _) _
      rw [hn]
      rfl
    | .div =>
      refine .inr ?_
      rw [loop_apply, loop_apply]
      change Res.bind (Res.bind (next it w1) _) _ = Res.bind (Res.bind (next it w1) _) _
      rw [hn]
      rfl

end Chomp

namespace Chomp.Rust

variable {σ X Y τ U T E V N : Type}

variable [Build] (W : World σ X Y)

attribute [local simp] apply eval evals callStd callMethod_eq receiver matchPats matchPat find Val.field
  index constant binop stdByMut stdCall optV indexSlice ofMode ofOption place

attribute [-simp] bind_pure_comp

omit [Build] in
theorem Same.caught {C : Cells σ X Y τ} {B : Type} {F : B → Val X Y} {x : M σ (Except (Stop X Y) (Val X Y) × List (Val X Y))}
    {w : τ} {y : M τ B} (h : Same C (fun a r w' => a = (.ok (F r), C.cells w')) x w y) :
    Same C (fun a r w' => a = (.ok (F r), C.cells w')) (x >>= Rust.caught) w y := by
  rw [← bind_pure y]
  refine Same.bind h fun a r w' hr => ?_
  subst hr
  exact Same.pure rfl

section
variable (C : Cells σ X Y τ) (u : U → Val X Y) (e : E → Val X Y) (v : V → Val X Y) (e' : N → Val X Y) (f g : Val X Y)
  (p : Parser τ X U E) (q : Parser τ X V N) {t : T → Val X Y} {c : Machine τ U T}

theorem bounded_many (hc : CollectsIn C W.collect c u t) (h : IsParserIn C W f u e p) (i : Input X) (r : Bounded.Range)
    (w : τ) :
    Same C (fun a r w' => a = (.ok (ofResult t e r), C.cells w'))
      (at_ (callFn W Text.bounded_many [ofInput i, ofRange r, f]) (C.cells w)) w
      (Bounded.manyWith r c.driver p i) := by
  rw [callFn]
  cases r with
  | range a b =>
    simp [Text.bounded_many, ofRange, scope_none, at_catchRet]
    exact Same.caught (Range_parse_many W C u e f p hc h i a b w)
  | from_ n =>
    simp [Text.bounded_many, ofRange, scope_none, at_catchRet]
    exact Same.caught (RangeFrom_parse_many W C u e f p hc h i n w)
  | full =>
    simp [Text.bounded_many, ofRange, scope_none, at_catchRet]
    exact Same.caught (RangeFull_parse_many W C u e f p hc h i w)
  | to n =>
    simp [Text.bounded_many, ofRange, scope_none, at_catchRet]
    exact Same.caught (RangeTo_parse_many W C u e f p hc h i n w)
  | exactly n =>
    simp [Text.bounded_many, ofRange, scope_none, at_catchRet]
    exact Same.caught (usize_parse_many W C u e f p hc h i n w)

theorem bounded_many_till (hc : CollectsIn C W.collect c u t) (h : IsParserIn C W f u e p) (h' : IsParserIn C W g v e' q)
    (i : Input X) (r : Bounded.Range) (w : τ) :
    Same C (fun a r w' => a = (.ok (ofResult t e r), C.cells w'))
      (at_ (callFn W Text.bounded_many_till [ofInput i, ofRange r, f, g]) (C.cells w)) w
      (Bounded.manyTillWith r c.driver p q i) := by
  rw [callFn]
  cases r with
  | range a b =>
    simp [Text.bounded_many_till, ofRange, scope_none, at_catchRet]
    exact Same.caught (Range_many_till W C u e v e' f g p q hc h h' i a b w)
  | from_ n =>
    simp [Text.bounded_many_till, ofRange, scope_none, at_catchRet]
    exact Same.caught (RangeFrom_many_till W C u e v e' f g p q hc h h' i n w)
  | full =>
    simp [Text.bounded_many_till, ofRange, scope_none, at_catchRet]
    exact Same.caught (RangeFull_many_till W C u e v e' f g p q hc h h' i w)
  | to n =>
    simp [Text.bounded_many_till, ofRange, scope_none, at_catchRet]
    exact Same.caught (RangeTo_many_till W C u e v e' f g p q hc h h' i n w)
  | exactly n =>
    simp [Text.bounded_many_till, ofRange, scope_none, at_catchRet]
    exact Same.caught (usize_many_till W C u e v e' f g p q hc h h' i n w)
end

/-- With closures of the user. -/
theorem callFn_plain {B : Type} {fn : Fn} {vs : List (Val X Y)} {y : M σ B} {F : B → Val X Y}
    (h : ∀ st w, Same (Cells.plain st) (fun a r _ => a = (.ok (F r), st)) (at_ (callFn W fn vs) st) w y) :
    callFn W fn vs = toR (do let r ← y; pure (F r)) := by
  refine ext_at fun st => ?_
  rw [Same.plain (h st), at_toR, bind_assoc]
  rfl

section
variable (u : U → Val X Y) (e : E → Val X Y) (v : V → Val X Y) (e' : N → Val X Y) (f g : Val X Y)
  (p : Parser σ X U E) (q : Parser σ X V N) {t : T → Val X Y} {c : Machine σ U T}

theorem many_plain (hc : Collects W.collect c u t) (h : IsParser W f u e p) (i : Input X) (r : Bounded.Range) :
    callFn W Text.bounded_many [ofInput i, ofRange r, f]
      = toR (do let r ← Bounded.manyWith r c.driver p i; pure (ofResult t e r)) :=
  callFn_plain W fun st w => bounded_many W (Cells.plain st) u e f p (hc.plain st) (h.plain st) i r w

theorem many_till_plain (hc : Collects W.collect c u t) (h : IsParser W f u e p) (h' : IsParser W g v e' q) (i : Input X)
    (r : Bounded.Range) :
    callFn W Text.bounded_many_till [ofInput i, ofRange r, f, g]
      = toR (do let r ← Bounded.manyTillWith r c.driver p q i; pure (ofResult t e r)) :=
  callFn_plain W fun st w =>
    bounded_many_till W (Cells.plain st) u e v e' f g p q (hc.plain st) (h.plain st) (h'.plain st) i r w

theorem count (hc : Collects W.collect c u t) (h : IsParser W f u e p) (i : Input X) (n : Nat) :
    callFn W Text.count [ofInput i, .nat n, f]
      = toR (do let r ← Bounded.manyWith (.exactly n) c.driver p i; pure (ofResult t e r)) := by
  have hm := many_plain W u e f p hc h i (.exactly n)
  rw [ofRange] at hm
  rw [callFn]
  simp [Text.count, scope_none, hm]

theorem many (hc : Collects W.collect c u t) (h : IsParser W f u e p) (i : Input X) :
    callFn W Text.many [ofInput i, f]
      = toR (do let r ← Bounded.manyWith .full c.driver p i; pure (ofResult t e r)) := by
  have hm := many_plain W u e f p hc h i .full
  rw [ofRange] at hm
  rw [callFn]
  simp [Text.many, scope_none, hm]

theorem many1 (hc : Collects W.collect c u t) (h : IsParser W f u e p) (i : Input X) :
    callFn W Text.many1 [ofInput i, f]
      = toR (do let r ← Bounded.manyWith (.from_ 1) c.driver p i; pure (ofResult t e r)) := by
  have hm := many_plain W u e f p hc h i (.from_ 1)
  rw [ofRange] at hm
  rw [callFn]
  simp [Text.many1, scope_none, hm]

theorem many_till (hc : Collects W.collect c u t) (h : IsParser W f u e p) (h' : IsParser W g v e' q) (i : Input X) :
    callFn W Text.many_till [ofInput i, f, g]
      = toR (do let r ← Bounded.manyTillWith .full c.driver p q i; pure (ofResult t e r)) := by
  have hm := many_till_plain W u e v e' f g p q hc h h' i .full
  rw [ofRange] at hm
  rw [callFn]
  simp [Text.many_till, scope_none, hm]

end

/-! ### `sep_by` -/

/-- The variables `p`, `sep` and `item` of `sep_by`. -/
def sepCells (st : List (Val X Y)) (f g : Val X Y) : Cells σ X Y (σ × Bool) :=
  ⟨fun w => st ++ [f, g, .bool w.2], Prod.fst, fun _ _ => by simp⟩

section
variable (u : U → Val X Y) (e : E → Val X Y) (v : V → Val X Y) (e' : N → Val X Y) (f g : Val X Y)
  (p : Parser σ X U E) (q : Parser σ X V N) (conv : N → M σ E)

/-- The closure `parser`. -/
def sepClosure (k : Nat) (rest : Env X Y) : Val X Y :=
  .clo [.bind false "i"] (.method (.method (.ite (.path
      "item") (.method (.call (.path "sep") [.path "i"]) "map" [.closure [.wild] (.tuple [])]) (.method (.path
      "i") "ret" [.tuple []])) "then" [.refMut (.path "p")]) "inspect" [.closure [.wild] (.assign (.path "item")
      (.bool true))]) (("item", .inr (k + 2)) :: ("sep", .inr (k + 1)) :: ("p", .inr k) :: rest)

omit [Build] in
/-- A call of a closure of the user. -/
theorem Same.user {A B D : Type} {st : List (Val X Y)} {P : A → B → σ × Bool → Prop} {x : M σ D} {F : D → M σ A}
    {G : D → M (σ × Bool) B} {w : σ} {b : Bool}
    (h : ∀ d w', Same (sepCells st f g) P (F d) (w', b) (G d)) :
    Same (sepCells st f g) P (x >>= F) (w, b) (Comb.withLocal x >>= G) := by
  show Spec.Outcomes _ (Res.bind (x w) _) (Res.bind (Comb.withLocal x (w, b)) _)
  rw [Comb.withLocal]
  cases x w with
  | ok a => exact h a.1 a.2
  | _ => exact True.intro

/-- `.then(&mut p).inspect(|_| item = true)` after `p` -/
theorem sep_item (st suf : List (Val X Y)) (env : Env X Y) (item : Bool) (w : σ)
    (henv : find env "item" = some (.inr (st.length + 2))) (r : ParseResult X U E) :
    Same (sepCells st f g) (fun a r w' => a = (.ok (ofResult u e r), st ++ f :: g :: .bool w'.2 :: suf))
      (at_ (callFn W Text.ParseResult_inspect [ofResult u e r, .clo [.wild] (.assign (.path "item") (.bool true)) env])
        (st ++ f :: g :: .bool item :: suf)) (w, item)
      (r.inspect (fun _ => modify (fun w => (w.1, true)))) := by
  rw [callFn]
  cases r with
  | data i a =>
    simp [Text.ParseResult_inspect, scope_none, at_bind, at_catchRet, evalArms, ofResult, henv]
    exact ⟨rfl, rfl⟩
  | error b a =>
    simp [Text.ParseResult_inspect, scope_none, at_bind, at_catchRet, evalArms, ofResult]
    exact ⟨rfl, rfl⟩
  | incomplete n =>
    simp [Text.ParseResult_inspect, scope_none, at_bind, at_catchRet, evalArms, ofResult]
    exact ⟨rfl, rfl⟩

/-- `.then(&mut p)` -/
theorem sep_then (h : IsParser W f u e p)
    (hconv : ∀ a, stdCall W "<V as From<E>>::from" [e' a] = toR (do let b ← conv a; pure (e b))) (st suf : List (Val X Y))
    (r : ParseResult X Unit N) :
    at_ (callFn W Text.ParseResult_then [ofResult ofUnit e' r, .loc st.length []]) (st ++ f :: suf)
      = (do let q ← Converted.andThen conv r p; pure (.ok (ofResult u e q), st ++ f :: suf)) := by
  rw [callFn]
  simp [Text.ParseResult_then, scope_none, at_bind, at_catchRet]
  rw [callFn]
  cases r with
  | data i a =>
    simp [Text.ParseResult_bind, scope_none, at_bind, at_catchRet, evalArms, ofResult, h i, Converted.andThen,
      Converted.bind]
    refine congrArg _ (funext fun q => ?_)
    cases q <;> simp [at_bind, ParseResult.mapErr] <;> rw [callFn] <;>
      simp [Text.ParseResult_map_err, scope_none, at_bind, at_catchRet, evalArms]
  | error b a =>
    simp [Text.ParseResult_bind, scope_none, at_bind, at_catchRet, evalArms, ofResult, Converted.andThen,
      Converted.bind, -stdCall, hconv]
  | incomplete n =>
    simp [Text.ParseResult_bind, scope_none, at_bind, at_catchRet, evalArms, ofResult, Converted.andThen,
      Converted.bind]

omit [Build] in
theorem Same.congr {A B τ : Type} {C : Cells σ X Y τ} {P : A → B → τ → Prop} {x : M σ A} {w : τ} {y y' : M τ B}
    (h : y w = y' w) (hs : Same C P x w y) : Same C P x w y' := by
  rw [Same] at hs ⊢
  rwa [← h]

omit [Build] in
theorem withLocal_bind {A B τ : Type} (x : M σ A) (f : A → M σ B) :
    (Comb.withLocal (x >>= f) : M (σ × τ) B) = Comb.withLocal x >>= fun a => Comb.withLocal (f a) := by
  funext w
  show Comb.withLocal (x >>= f) w = Res.bind (Comb.withLocal x w) fun a => Comb.withLocal (f a.1) a.2
  have hb : (x >>= f) w.1 = Res.bind (x w.1) fun a => f a.1 a.2 := rfl
  rw [Comb.withLocal, Comb.withLocal, hb]
  cases x w.1 with
  | ok a => rfl
  | panic => rfl
  | ub => rfl
  | div => rfl

omit [Build] in
theorem andThen_withLocal (r : ParseResult X Unit N) :
    (Converted.andThen (fun e => Comb.withLocal (conv e)) r (fun i => Comb.withLocal (p i)) : M (σ × Bool) _)
      = Comb.withLocal (Converted.andThen conv r p) := by
  cases r with
  | data i a =>
    show Comb.withLocal (p i) >>= _ = Comb.withLocal (p i >>= _)
    rw [withLocal_bind]
    refine congrArg _ (funext fun r => ?_)
    cases r <;> rfl
  | error b a =>
    show Comb.withLocal (conv a) >>= _ = Comb.withLocal (conv a >>= _)
    rw [withLocal_bind]
    rfl
  | incomplete n => rfl

theorem sep_closure (h : IsParser W f u e p) (h' : IsParser W g v e' q)
    (hconv : ∀ a, stdCall W "<V as From<E>>::from" [e' a] = toR (do let b ← conv a; pure (e b))) (st : List (Val X Y)) (rest : Env X Y) :
    IsParserIn (sepCells st f g) W (sepClosure st.length rest) u e (Converted.sepParser conv p q) := by
  intro i w suf
  obtain ⟨w, item⟩ := w
  have ht := sep_then W u e e' f p conv h hconv st
  cases item with
  | false =>
    simp [sepClosure, scope_none, at_bind, at_catchRet, sepCells]
    have h1 := ht (g :: .bool false :: suf) (.data i ())
    simp [ofResult, ofUnit] at h1
    simp [h1]
    refine Same.congr (C := sepCells st f g) (y := Converted.andThen (fun e => Comb.withLocal (conv e)) (.data i ())
      (fun i => Comb.withLocal (p i)) >>= fun r => r.inspect (fun _ => modify (fun w => (w.1, true)))) rfl ?_
    rw [andThen_withLocal]
    refine Same.user f g fun r w' => ?_
    rw [← bind_pure (ParseResult.inspect _ _)]
    refine Same.bind (sep_item W u e f g st suf _ false w' (by simp) r) fun a r w' hr => ?_
    subst hr
    exact ⟨rfl, rfl⟩
  | true =>
    simp [sepClosure, scope_none, at_bind, at_catchRet, sepCells, h' i]
    refine Same.congr (C := sepCells st f g) (y := Comb.withLocal (q i) >>= fun r => r.map (fun _ => pure ())
      >>= fun r => Converted.andThen (fun e => Comb.withLocal (conv e)) r (fun i => Comb.withLocal (p i)) >>= fun r =>
      r.inspect (fun _ => modify (fun w => (w.1, true)))) rfl ?_
    refine Same.user f g fun r w' => ?_
    rw [map W v e' ofUnit r _ (fun _ => pure ()) (by intro a; simp [scope_none, ofUnit])]
    have hm : ∃ r', (r.map (fun _ => pure ()) : M σ (ParseResult X Unit N)) = pure r'
        ∧ (r.map (fun _ => pure ()) : M (σ × Bool) (ParseResult X Unit N)) = pure r' := by
      cases r with
      | data i a => exact ⟨.data i (), rfl, rfl⟩
      | error b a => exact ⟨.error b a, rfl, rfl⟩
      | incomplete n => exact ⟨.incomplete n, rfl, rfl⟩
    obtain ⟨r', h1, h2⟩ := hm
    have h3 := ht (g :: .bool true :: suf) r'
    rw [h1, h2]
    simp [at_bind, h3]
    rw [andThen_withLocal]
    refine Same.user f g fun r w' => ?_
    rw [← bind_pure (ParseResult.inspect _ _)]
    refine Same.bind (sep_item W u e f g st suf _ true w' (by simp) r) fun a r w' hr => ?_
    subst hr
    exact ⟨rfl, rfl⟩

variable {t : T → Val X Y} {c : Machine σ U T}

omit [Build] in
theorem drop_local {B : Type} {F : B → Val X Y} {st : List (Val X Y)}
    {x : M σ (Except (Stop X Y) (Val X Y) × List (Val X Y))} {y : M (σ × Bool) B}
    (h : ∀ w, Same (sepCells st f g) (fun a r w' => a = (.ok (F r), (sepCells (σ := σ) st f g).cells w')) x (w, false) y) :
    (do
      let r ← x
      Rust.caught (r.1, List.take st.length (List.take (st.length + 1) (List.take (st.length + 2) r.2))))
      = (do let r ← Comb.newLocal false y; Pure.pure (.ok (F r), st)) := by
  funext w
  have hw := h w
  have hx : (sepCells (σ := σ) st f g).world (w, false) = w := rfl
  rw [Same, hx] at hw
  show Res.bind (x w) _ = Res.bind (Comb.newLocal false y w) _
  rw [Comb.newLocal]
  match hx : x w, hy : y (w, false) with
  | .ok (a, w1), .ok (b, w2) =>
    rw [hx, hy] at hw
    obtain ⟨h1, h2⟩ := hw
    dsimp only at h1 h2
    subst h1 h2
    show Rust.caught (.ok (F b), List.take st.length (List.take (st.length + 1) (List.take (st.length + 2)
      (st ++ [f, g, .bool w2.2])))) w2.1 = Res.ok ((.ok (F b), st), w2.1)
    simp [List.take_take, Nat.min_eq_left]
  | .panic, .panic => rfl
  | .ub, .ub => rfl
  | .div, .div => rfl
  | .ok _, .panic | .ok _, .ub | .ok _, .div | .panic, .ok _ | .panic, .ub | .panic, .div | .ub, .ok _ | .ub, .panic
  | .ub, .div | .div, .ok _ | .div, .panic | .div, .ub => rw [hx, hy] at hw; exact hw.elim

omit [Build] in
/-- The collection does not see the variables of `sep_by`. -/
def Collects.inner {c' : Machine σ (Val X Y) (Val X Y)} {c : Machine σ U T} {u : U → Val X Y} {t : T → Val X Y}
    (hc : Collects c' c u t) (st : List (Val X Y)) (f g : Val X Y) : CollectsIn (sepCells st f g) c' c.inner u t where
  state := hc.state
  start := hc.start
  done s r h := hc.done s r (Machine.inner_done.mp h)
  panic s h := hc.panic s (Machine.inner_panic.mp h)
  next s k h := hc.next s k (Machine.inner_next.mp h)
  hint s k h := hc.hint s k (Machine.inner_hint.mp h)
  act s g h := by
    obtain ⟨g1, h1, rfl⟩ := Machine.inner_act.mp h
    obtain ⟨g', h2, h3⟩ := hc.act s g1 h1
    refine ⟨g', h2, fun w => ?_⟩
    have := h3 w.1
    unfold Comb.withLocal
    revert this
    show Spec.Outcomes _ (g' w.1) (g1 w.1) → Spec.Outcomes _ (g' w.1) _
    cases g' w.1 <;> cases g1 w.1 <;> first | exact id | exact fun h => ⟨h.1, h.2, rfl⟩

theorem sep_by_from (hc : Collects W.collect c u t) (h : IsParser W f u e p) (h' : IsParser W g v e' q)
    (hconv : ∀ a, stdCall W "<V as From<E>>::from" [e' a] = toR (do let b ← conv a; pure (e b))) (i : Input X) :
    callFn W Text.sep_by [ofInput i, f, g]
      = toR (do
        let r ← Comb.newLocal false (Bounded.manyWith .full c.inner.driver (Converted.sepParser conv p q) i)
        pure (ofResult t e r)) := by
  refine ext_at fun st => ?_
  have hm := drop_local f g (st := st) (F := ofResult t e)
    (x := at_ (callFn W Text.bounded_many [ofInput i, ofRange .full, sepClosure st.length _]) (st ++ [f, g, .bool false]))
    fun w => bounded_many W (sepCells st f g) u e _ _ (hc.inner st f g)
    (sep_closure W u e v e' f g p q conv h h' hconv st [("sep", .inl g), ("p", .inl f), ("i", .inl (ofInput i))])
    i .full (w, false)
  rw [sepClosure, ofRange] at hm
  rw [callFn]
  simp [Text.sep_by, scope_none, at_scope, at_bind, at_catchRet]
  exact hm

theorem sep_by1_from (hc : Collects W.collect c u t) (h : IsParser W f u e p) (h' : IsParser W g v e' q)
    (hconv : ∀ a, stdCall W "<V as From<E>>::from" [e' a] = toR (do let b ← conv a; pure (e b))) (i : Input X) :
    callFn W Text.sep_by1 [ofInput i, f, g]
      = toR (do
        let r ← Comb.newLocal false (Bounded.manyWith (.from_ 1) c.inner.driver (Converted.sepParser conv p q) i)
        pure (ofResult t e r)) := by
  refine ext_at fun st => ?_
  have hm := drop_local f g (st := st) (F := ofResult t e)
    (x := at_ (callFn W Text.bounded_many [ofInput i, ofRange (.from_ 1), sepClosure st.length _]) (st ++ [f, g, .bool false]))
    fun w => bounded_many W (sepCells st f g) u e _ _ (hc.inner st f g)
    (sep_closure W u e v e' f g p q conv h h' hconv st [("sep", .inl g), ("p", .inl f), ("i", .inl (ofInput i))])
    i (.from_ 1) (w, false)
  rw [sepClosure, ofRange] at hm
  rw [callFn]
  simp [Text.sep_by1, scope_none, at_scope, at_bind, at_catchRet]
  exact hm

omit [Build] in
/-- A conversion without effects. -/
theorem converted_sep (conv : N → E) :
    Converted.sepParser (fun a => pure (conv a)) p q = Comb.sepParser conv p q := by
  funext i
  have h : ∀ r : ParseResult X Unit N,
      Converted.andThen (fun e => Comb.withLocal (τ := Bool) (pure (conv e) : M σ E)) r (fun i => Comb.withLocal (p i))
        = r.andThen conv (fun i => Comb.withLocal (p i)) := fun r => by cases r <;> rfl
  unfold Converted.sepParser Comb.sepParser
  simp only [h]

theorem sep_by (conv : N → E) (hc : Collects W.collect c u t) (h : IsParser W f u e p) (h' : IsParser W g v e' q)
    (hconv : ∀ a, stdCall W "<V as From<E>>::from" [e' a] = pure (e (conv a))) (i : Input X) :
    callFn W Text.sep_by [ofInput i, f, g]
      = toR (do
        let r ← Comb.newLocal false (Bounded.manyWith .full c.inner.driver (Comb.sepParser conv p q) i)
        pure (ofResult t e r)) := by
  rw [← converted_sep]
  exact sep_by_from W u e v e' f g p q _ hc h h' (fun a => by rw [hconv]; rfl) i

theorem sep_by1 (conv : N → E) (hc : Collects W.collect c u t) (h : IsParser W f u e p) (h' : IsParser W g v e' q)
    (hconv : ∀ a, stdCall W "<V as From<E>>::from" [e' a] = pure (e (conv a))) (i : Input X) :
    callFn W Text.sep_by1 [ofInput i, f, g]
      = toR (do
        let r ← Comb.newLocal false (Bounded.manyWith (.from_ 1) c.inner.driver (Comb.sepParser conv p q) i)
        pure (ofResult t e r)) := by
  rw [← converted_sep]
  exact sep_by1_from W u e v e' f g p q _ hc h h' (fun a => by rw [hconv]; rfl) i

end

end Chomp.Rust
