import Verif.Rust.Loops

/-
The captured state of closures which are part of the text: cells of the interpreter and the state of the user's
closures.
-/

namespace Chomp.Rust

open Spec

variable {σ X Y : Type}

/-- Where the captured state `τ` of a closure is: `cells` are the first cells, `world` is the state of the user's
closures. -/
structure Cells (σ X Y τ : Type) where
  cells : τ → List (Val X Y)
  world : τ → σ
  len : ∀ w w', (cells w).length = (cells w').length

/-- Closures of the user capture no cells. -/
def Cells.plain (st : List (Val X Y)) : Cells σ X Y σ := ⟨fun _ => st, id, fun _ _ => rfl⟩

variable {τ : Type} (C : Cells σ X Y τ)

/-- `x` does to the cells and the user's closures what `y` does to `w`, with results related by `P`, or both panic, or
neither returns. -/
def Same (P : A → B → τ → Prop) (x : M σ A) (w : τ) (y : M τ B) : Prop :=
  Outcomes (fun a b => P a.1 b.1 b.2 ∧ a.2 = C.world b.2) (x (C.world w)) (y w)

namespace Same
variable {C} {P : A → B → τ → Prop}

theorem pure {a : A} {b : B} {w : τ} (h : P a b w) : Same C P (Pure.pure a) w (Pure.pure b) := ⟨h, rfl⟩

theorem panic {w : τ} : Same C P M.panic w M.panic := True.intro

theorem lift (x : Res D) {f : D → M σ A} {g : D → M τ B} {w : τ} (h : ∀ d, Same C P (f d) w (g d)) :
    Same C P (M.lift x >>= f) w (M.lift x >>= g) := by
  cases x with
  | ok d => exact h d
  | _ => exact True.intro

theorem bind {Q : A' → B' → τ → Prop} {x : M σ A'} {y : M τ B'} {f : A' → M σ A} {g : B' → M τ B} {w : τ}
    (h : Same C Q x w y) (hf : ∀ a b w', Q a b w' → Same C P (f a) w' (g b)) : Same C P (x >>= f) w (y >>= g) := by
  show Outcomes _ (Res.bind (x (C.world w)) _) (Res.bind (y w) _)
  have h' : Outcomes _ (x (C.world w)) (y w) := h
  match hx : x (C.world w), hy : y w, h' with
  | .ok (a, u), .ok (b, w'), h' =>
    obtain ⟨hq, rfl⟩ := h'
    exact hf a b w' hq
  | .panic, .panic, _ => exact True.intro
  | .ub, .ub, _ => exact True.intro
  | .div, .div, _ => exact True.intro

theorem mono {Q : A → B → τ → Prop} {x : M σ A} {y : M τ B} {w : τ} (h : Same C P x w y)
    (hp : ∀ a b w', P a b w' → Q a b w') : Same C Q x w y := by
  have h' : Outcomes _ (x (C.world w)) (y w) := h
  show Outcomes _ (x (C.world w)) (y w)
  match hx : x (C.world w), hy : y w, h' with
  | .ok (a, u), .ok (b, w'), h' => exact ⟨hp _ _ _ h'.1, h'.2⟩
  | .panic, .panic, _ => exact True.intro
  | .ub, .ub, _ => exact True.intro
  | .div, .div, _ => exact True.intro

/-- Nothing but the world: an equation. -/
theorem plain {st : List (Val X Y)} {x : M σ A} {y : M σ B} {F : B → A}
    (h : ∀ w, Same (Cells.plain st) (fun a b _ => a = F b) x w y) : x = (do let b ← y; Pure.pure (F b)) := by
  funext w
  have h' : Outcomes _ (x w) (y w) := h w
  show x w = Res.bind (y w) _
  match hx : x w, hy : y w, h' with
  | .ok (a, u), .ok (b, w'), h' =>
    obtain ⟨h1, h2⟩ := h'
    cases h1
    cases h2
    rfl
  | .panic, .panic, _ => rfl
  | .ub, .ub, _ => rfl
  | .div, .div, _ => rfl

end Same

variable [Build] (W : World σ X Y)

/-- The value `f` is a parser which does what `p` does, with captured state in the cells. -/
def IsParserIn (f : Val X Y) (t : T → Val X Y) (e : E → Val X Y) (p : Parser τ X T E) : Prop :=
  ∀ i w suf, Same C (fun a r w' => a = (.ok (ofResult t e r), C.cells w' ++ suf))
    (at_ (apply W f [ofInput i]) (C.cells w ++ suf)) w (p i)

theorem IsParser.plain {W : World σ X Y} {f : Val X Y} {t : T → Val X Y} {e : E → Val X Y} {p : Parser σ X T E}
    (h : IsParser W f t e p) (st : List (Val X Y)) : IsParserIn (Cells.plain st) W f t e p := by
  intro i w suf
  rw [h i, at_toR, bind_assoc]
  show Outcomes _ (Res.bind (p i w) _) (p i w)
  cases p i w with
  | ok r => exact ⟨rfl, rfl⟩
  | _ => exact True.intro

/-- The collection `c'` of the interpreter is the collection `c`, with items `u` and results `t`. -/
structure Collects (c' : Machine σ (Val X Y) (Val X Y)) (c : Machine σ U T) (u : U → Val X Y) (t : T → Val X Y) where
  state : c.State → c'.State
  start : state c.start = c'.start
  done : ∀ s r, c.ask s = .done r → c'.ask (state s) = .done (t r)
  panic : ∀ s, c.ask s = .panic → c'.ask (state s) = .panic
  next : ∀ s k, c.ask s = .next k → ∃ k', c'.ask (state s) = .next k' ∧ ∀ o, k' (o.map u) = state (k o)
  hint : ∀ s k, c.ask s = .hint k → ∃ k', c'.ask (state s) = .hint k' ∧ ∀ h, k' h = state (k h)
  act : ∀ s g, c.ask s = .act g → ∃ g', c'.ask (state s) = .act g' ∧
    ∀ w, Outcomes (fun a b => a.1 = state b.1 ∧ a.2 = b.2) (g' w) (g w)

/-- Likewise where other code has captured cells, which the collection does not change. -/
structure CollectsIn (c' : Machine σ (Val X Y) (Val X Y)) (c : Machine τ U T) (u : U → Val X Y) (t : T → Val X Y) where
  state : c.State → c'.State
  start : state c.start = c'.start
  done : ∀ s r, c.ask s = .done r → c'.ask (state s) = .done (t r)
  panic : ∀ s, c.ask s = .panic → c'.ask (state s) = .panic
  next : ∀ s k, c.ask s = .next k → ∃ k', c'.ask (state s) = .next k' ∧ ∀ o, k' (o.map u) = state (k o)
  hint : ∀ s k, c.ask s = .hint k → ∃ k', c'.ask (state s) = .hint k' ∧ ∀ h, k' h = state (k h)
  act : ∀ s g, c.ask s = .act g → ∃ g', c'.ask (state s) = .act g' ∧
    ∀ w, Outcomes (fun a b => a.1 = state b.1 ∧ a.2 = C.world b.2 ∧ C.cells b.2 = C.cells w) (g' (C.world w)) (g w)

/-- Likewise without effects. -/
structure CollectsPure (c' : Consumer (Val X Y) (Val X Y)) (c : Consumer U T) (u : U → Val X Y) (t : T → Val X Y) where
  state : c.State → c'.State
  start : state c.start = c'.start
  done : ∀ s r, c.ask s = .done r → c'.ask (state s) = .done (t r)
  panic : ∀ s, c.ask s = .panic → c'.ask (state s) = .panic
  next : ∀ s k, c.ask s = .next k → ∃ k', c'.ask (state s) = .next k' ∧ ∀ o, k' (o.map u) = state (k o)
  hint : ∀ s k, c.ask s = .hint k → ∃ k', c'.ask (state s) = .hint k' ∧ ∀ h, k' h = state (k h)

omit [Build] in
theorem machine_cases (c : Consumer U T) (s : c.State) :
    (∀ r, (c.machine (σ := τ)).ask s = .done r ↔ c.ask s = .done r) ∧
    ((c.machine (σ := τ)).ask s = .panic ↔ c.ask s = .panic) ∧
    (∀ k, (c.machine (σ := τ)).ask s = .next k ↔ c.ask s = .next k) ∧
    (∀ k, (c.machine (σ := τ)).ask s = .hint k ↔ c.ask s = .hint k) ∧
    ∀ g, (c.machine (σ := τ)).ask s ≠ .act g := by
  have e : (c.machine (σ := τ)).ask s = (match c.ask s with
    | .done t => .done t
    | .panic => .panic
    | .next k => .next k
    | .hint k => .hint k : Demand τ U T c.State) := rfl
  rw [e]
  cases c.ask s with
  | done t => exact ⟨fun r => ⟨fun h => by cases h; rfl, fun h => by cases h; rfl⟩, ⟨nofun, nofun⟩, fun k => ⟨nofun, nofun⟩, fun k => ⟨nofun, nofun⟩, nofun⟩
  | panic => exact ⟨fun r => ⟨nofun, nofun⟩, ⟨fun _ => rfl, fun _ => rfl⟩, fun k => ⟨nofun, nofun⟩, fun k => ⟨nofun, nofun⟩, nofun⟩
  | next k => exact ⟨fun r => ⟨nofun, nofun⟩, ⟨nofun, nofun⟩, fun k => ⟨fun h => by cases h; rfl, fun h => by cases h; rfl⟩, fun k => ⟨nofun, nofun⟩, nofun⟩
  | hint k => exact ⟨fun r => ⟨nofun, nofun⟩, ⟨nofun, nofun⟩, fun k => ⟨nofun, nofun⟩, fun k => ⟨fun h => by cases h; rfl, fun h => by cases h; rfl⟩, nofun⟩

def CollectsPure.machine {c' : Consumer (Val X Y) (Val X Y)} {c : Consumer U T} {u : U → Val X Y} {t : T → Val X Y}
    (hc : CollectsPure c' c u t) : Collects (σ := σ) c'.machine c.machine u t where
  state := hc.state
  start := hc.start
  done s r h := ((machine_cases _ _).1 _).mpr (hc.done s r (((machine_cases _ _).1 _).mp h))
  panic s h := (machine_cases _ _).2.1.mpr (hc.panic s ((machine_cases _ _).2.1.mp h))
  next s k h := by
    obtain ⟨k', h1, h2⟩ := hc.next s k (((machine_cases _ _).2.2.1 _).mp h)
    exact ⟨k', ((machine_cases _ _).2.2.1 _).mpr h1, h2⟩
  hint s k h := by
    obtain ⟨k', h1, h2⟩ := hc.hint s k (((machine_cases _ _).2.2.2.1 _).mp h)
    exact ⟨k', ((machine_cases _ _).2.2.2.1 _).mpr h1, h2⟩
  act s g h := absurd h ((machine_cases _ _).2.2.2.2 g)

def Collects.plain {c' : Machine σ (Val X Y) (Val X Y)} {c : Machine σ U T} {u : U → Val X Y} {t : T → Val X Y}
    (hc : Collects c' c u t) (st : List (Val X Y)) : CollectsIn (Cells.plain st) c' c u t where
  state := hc.state
  start := hc.start
  done := hc.done
  panic := hc.panic
  next := hc.next
  hint := hc.hint
  act s g h := by
    obtain ⟨g', h2, h3⟩ := hc.act s g h
    refine ⟨g', h2, fun w => ?_⟩
    have := h3 w
    revert this
    show Outcomes _ (g' w) (g w) → Outcomes _ (g' w) _
    cases g' w <;> cases g w <;> first | exact id | exact fun h => ⟨h.1, h.2, rfl⟩

omit [Build] in
theorem drive_same {c' : Machine σ (Val X Y) (Val X Y)} {c : Machine τ U T} {u : U → Val X Y} {t : T → Val X Y}
    (hc : CollectsIn C c' c u t) {It : Type} (cell : It → Bool → List (Val X Y))
    {next' : RM σ X Y (Option (Val X Y))} {hint' : RM σ X Y (Nat × Option Nat)}
    {next : It → M τ (Option U × It)} {hint : It → Nat × Option Nat}
    (hnext : ∀ it b w, Same C (fun a r w' => ∃ b', a = (.ok (r.1.map u), C.cells w' ++ cell r.2 b'))
      (at_ next' (C.cells w ++ cell it b)) w (next it))
    (hhint : ∀ it b w, at_ hint' (C.cells w ++ cell it b) = pure (.ok (hint it), C.cells w ++ cell it b))
    (it : It) (b : Bool) (w : τ) :
    Same C (fun a r w' => ∃ b', a = (.ok (t r.1), C.cells w' ++ cell r.2 b'))
      (at_ (drive c' next' hint') (C.cells w ++ cell it b)) w (c.driver It next hint it) := by
  refine loop_sim (fun (s1 : c'.State × List (Val X Y)) w1 (s2 : c.State × It) w2 =>
      s1.1 = hc.state s2.1 ∧ (∃ b, s1.2 = C.cells w2 ++ cell s2.2 b) ∧ w1 = C.world w2) (Outcomes _) True.intro
    (fun s1 w1 s2 w2 hR => ?_) ⟨hc.start.symm, ⟨b, rfl⟩, rfl⟩
  obtain ⟨s1, st1⟩ := s1
  obtain ⟨s2, it⟩ := s2
  obtain ⟨h1, ⟨b, h2⟩, rfl⟩ := hR
  dsimp only at h1 h2
  subst h1 h2
  rw [loop_apply, loop_apply]
  cases ha : c.ask s2 with
  | done r =>
    refine .inr ?_
    dsimp only
    rw [hc.done s2 r ha]
    exact ⟨⟨b, rfl⟩, rfl⟩
  | panic =>
    refine .inr ?_
    dsimp only
    rw [hc.panic s2 ha]
    exact True.intro
  | next k =>
    obtain ⟨k', hk, hk'⟩ := hc.next s2 k ha
    have hn : Outcomes _ _ _ := hnext it b w2
    dsimp only
    rw [hk]
    match hb : at_ next' (C.cells w2 ++ cell it b) (C.world w2), hg : next it w2, hn with
    | .ok (x, u), .ok ((o, it'), u'), hs =>
      obtain ⟨⟨b', rfl⟩, rfl⟩ := hs
      refine .inl ⟨(k' (o.map _), C.cells u' ++ cell it' b'), C.world u', (k o, it'), u', ?_, ?_, hk' o, ⟨b', rfl⟩, rfl⟩
      · show Res.bind (at_ next' (C.cells w2 ++ cell it b) (C.world w2)) _ = _
        rw [hb]
        rfl
      · show Res.bind (next it w2) _ = _
        rw [hg]
        rfl
    | .panic, .panic, _ =>
      refine .inr ?_
      change Outcomes _ (Res.bind (Res.bind (at_ next' (C.cells w2 ++ cell it b) (C.world w2)) _) _) (Res.bind (Res.bind (next it w2) _) _)
      rw [hb, hg]
      exact True.intro
    | .ub, .ub, _ =>
      refine .inr ?_
      change Outcomes _ (Res.bind (Res.bind (at_ next' (C.cells w2 ++ cell it b) (C.world w2)) _) _) (Res.bind (Res.bind (next it w2) _) _)
      rw [hb, hg]
      exact True.intro
    | .div, .div, _ =>
      refine .inr ?_
      change Outcomes _ (Res.bind (Res.bind (at_ next' (C.cells w2 ++ cell it b) (C.world w2)) _) _) (Res.bind (Res.bind (next it w2) _) _)
      rw [hb, hg]
      exact True.intro
  | hint k =>
    obtain ⟨k', hk, hk'⟩ := hc.hint s2 k ha
    dsimp only
    rw [hk]
    refine .inl ⟨(k' (hint it), C.cells w2 ++ cell it b), C.world w2, (k (hint it), it), w2, ?_, rfl, hk' _, ⟨b, rfl⟩, rfl⟩
    show Res.bind (at_ hint' (C.cells w2 ++ cell it b) (C.world w2)) _ = _
    rw [hhint]
    rfl
  | act g =>
    obtain ⟨g', hk, hk'⟩ := hc.act s2 g ha
    have hn := hk' w2
    dsimp only
    rw [hk]
    match hb : g' (C.world w2), hg : g w2, hn with
    | .ok (s', v), .ok (s'', v'), hs =>
      obtain ⟨rfl, rfl, hcells⟩ := hs
      refine .inl ⟨(hc.state s'', C.cells w2 ++ cell it b), C.world v', (s'', it), v', ?_, ?_, rfl, ⟨b, ?_⟩, rfl⟩
      · show Res.bind (g' (C.world w2)) _ = _
        rw [hb]
        rfl
      · show Res.bind (g w2) _ = _
        rw [hg]
        rfl
      · dsimp only
        rw [hcells]
    | .panic, .panic, _ =>
      refine .inr ?_
      change Outcomes _ (Res.bind (Res.bind (g' (C.world w2)) _) _) (Res.bind (Res.bind (g w2) _) _)
      rw [hb, hg]
      exact True.intro
    | .ub, .ub, _ =>
      refine .inr ?_
      change Outcomes _ (Res.bind (Res.bind (g' (C.world w2)) _) _) (Res.bind (Res.bind (g w2) _) _)
      rw [hb, hg]
      exact True.intro
    | .div, .div, _ =>
      refine .inr ?_
      change Outcomes _ (Res.bind (Res.bind (g' (C.world w2)) _) _) (Res.bind (Res.bind (g w2) _) _)
      rw [hb, hg]
      exact True.intro

end Chomp.Rust
