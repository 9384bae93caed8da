import Verif.Model.Clone
import Verif.Props.Built
import Verif.Props.Closures
import Verif.Lemmas.Closures
import Verif.Spec.Productive

/-
C106: which parsers call `Clone`, and what for. `clone` is the implementation of `Clone` of the items,
`cloneT` that of the mapped items of `satisfy_with`; both are arbitrary computations.
-/

namespace Chomp.Props

open Spec

variable {σ I : Type}

/-- `peek` returns a clone of the first item, which is made once. -/
theorem C106_peek (clone : I → M σ I) (m : Mode) (w : σ) :
    Cloned.peek clone ⟨m, []⟩ w = .ok (.data ⟨m, []⟩ none, w) ∧
    ∀ c r, Cloned.peek clone ⟨m, c :: r⟩ w =
      (clone c w >>= fun x => .ok (.data ⟨m, c :: r⟩ (some x.1), x.2)) := by
  refine ⟨rfl, fun c r => ?_⟩
  unfold Cloned.peek Cloned.first
  simp only [M.bind_apply]
  cases clone c w <;> rfl

/-- So does `peek_next`. -/
theorem C106_peek_next (clone : I → M σ I) (m : Mode) (w : σ) :
    Cloned.peekNext clone ⟨m, []⟩ w = .ok (.incomplete 1, w) ∧
    ∀ c r, Cloned.peekNext clone ⟨m, c :: r⟩ w =
      (clone c w >>= fun x => .ok (.data ⟨m, c :: r⟩ x.1, x.2)) := by
  refine ⟨rfl, fun c r => ?_⟩
  unfold Cloned.peekNext Cloned.first
  simp only [M.bind_apply]
  cases clone c w <;> rfl

/-- `satisfy_with` maps a clone of the item, asks about a clone of what it was mapped to, and returns what it
was mapped to: nothing is cloned twice, and nothing is cloned in the result. -/
theorem C106_satisfy_with (clone : I → M σ I) (cloneT : T → M σ T) (v : Bool) (f : I → M σ T)
    (p : T → M σ Bool) (m : Mode) (w : σ) :
    Cloned.satisfyWith clone cloneT v f p ⟨m, []⟩ w = .ok (.incomplete 1, w) ∧
    ∀ c r, Cloned.satisfyWith clone cloneT v f p ⟨m, c :: r⟩ w =
      (clone c w >>= fun x => f x.1 x.2 >>= fun t => cloneT t.1 t.2 >>= fun u => p u.1 u.2 >>= fun b =>
        .ok (if b.1 then .data ⟨m, r⟩ t.1 else .error (c :: r) (if v then .unexpected else .generic), b.2)) := by
  refine ⟨rfl, fun c r => ?_⟩
  unfold Cloned.satisfyWith Cloned.first
  simp only [M.bind_apply]
  cases h1 : clone c w with
  | ok x =>
    simp only [Res.bind_ok]
    rw [show (pure (some x.1) : M σ (Option I)) x.2 = .ok (some x.1, x.2) from rfl]
    simp only [Res.bind_ok, M.bind_apply]
    cases h2 : f x.1 x.2 with
    | ok t =>
      simp only [Res.bind_ok]
      cases h3 : cloneT t.1 t.2 with
      | ok u =>
        simp only [Res.bind_ok]
        cases h4 : p u.1 u.2 with
        | ok b => obtain ⟨_ | _, w'⟩ := b <;> rfl
        | _ => rfl
      | _ => rfl
    | _ => rfl
  | _ => rfl

/-- `take_till` clones every item it asks about, just before it does: with the cloned items as the items,
it is the plain one. The slice which it returns is the original. -/
theorem C106_take_till (clone : I → M σ I) (f : I → M σ Bool) :
    Cloned.takeTill clone f = Closures.takeTill (fun c => clone c >>= f) := by
  have h : ∀ b, Cloned.position clone f b = Closures.position (fun c => clone c >>= f) b := by
    intro b
    induction b with
    | nil => rfl
    | cons c b ih =>
      funext w
      unfold Cloned.position Closures.position
      rw [ih]
      simp only [M.bind_apply]
      cases clone c w <;> rfl
  funext i
  unfold Cloned.takeTill Closures.takeTill
  dsimp only
  rw [h]
  rfl

/-- In terms of parsers which only copy: the other three likewise. -/
theorem C106_composed (clone : I → M σ I) (cloneT : T → M σ T) (v : Bool) (f : I → M σ T)
    (p : T → M σ Bool) :
    Cloned.peek clone = Closures.map Parsers.peek (fun o => match o with
      | none => pure none
      | some c => clone c >>= fun c' => pure (some c')) ∧
    Cloned.peekNext clone = Closures.map Parsers.peekNext clone ∧
    Cloned.satisfyWith clone cloneT v f p =
      Closures.satisfyWith v (fun c => clone c >>= f) (fun t => cloneT t >>= p) := by
  refine ⟨?_, ?_, ?_⟩
  · funext i w
    obtain ⟨m, b⟩ := i
    cases b with
    | nil => rfl
    | cons c b =>
      rw [(C106_peek clone m w).2]
      show _ = (clone c >>= fun c' => pure (some c')) w >>= _
      rw [M.bind_apply]
      cases clone c w <;> rfl
  · funext i w
    obtain ⟨m, b⟩ := i
    cases b with
    | nil => rfl
    | cons c b =>
      rw [(C106_peek_next clone m w).2]
      show _ = clone c w >>= _
      cases clone c w <;> rfl
  · funext i w
    obtain ⟨m, b⟩ := i
    cases b with
    | nil => rfl
    | cons c b =>
      rw [(C106_satisfy_with clone cloneT v f p m w).2]
      unfold Closures.satisfyWith
      simp only [M.bind_apply]
      cases h1 : clone c w with
      | ok x =>
        simp only [Res.bind_ok]
        cases h2 : f x.1 x.2 with
        | ok t =>
          simp only [Res.bind_ok]
          cases h3 : cloneT t.1 t.2 with
          | ok u =>
            simp only [Res.bind_ok]
            cases h4 : p u.1 u.2 with
            | ok b => obtain ⟨_ | _, w'⟩ := b <;> rfl
            | _ => rfl
          | _ => rfl
        | _ => rfl
      | _ => rfl

/-- If `clone` only copies, they are the parsers of `Closures` and `Parsers`. -/
theorem C106_copy (v : Bool) (f : I → M σ T) (p : T → M σ Bool) (g : I → M σ Bool) :
    Cloned.peek (σ := σ) (I := I) pure = Parsers.peek ∧
    Cloned.peekNext (σ := σ) (I := I) pure = Parsers.peekNext ∧
    Cloned.satisfyWith pure pure v f p = Closures.satisfyWith v f p ∧
    Cloned.takeTill pure g = Closures.takeTill g := by
  have hpure : ∀ {A B : Type} (k : A → M σ B), (fun a => (pure a : M σ A) >>= k) = k := fun k => rfl
  refine ⟨?_, ?_, ?_, ?_⟩
  · funext i w
    obtain ⟨m, b⟩ := i
    cases b <;> rfl
  · funext i w
    obtain ⟨m, b⟩ := i
    cases b <;> rfl
  · rw [(C106_composed pure pure v f p).2.2, hpure, hpure]
  · rw [C106_take_till, hpure]

/-- So everything which is true of all parsers assembled from the library (C05–C08, C51, …) is true with any
`Clone`, and without a panic in `Clone` there is none. -/
theorem C106_built {a : Allow} (clone : I → M σ I) (cloneT : T → M σ T) (v : Bool) (f : I → M σ T)
    (p : T → M σ Bool) (g : I → M σ Bool)
    (hc : a.mayPanic = false → ∀ c w, clone c w ≠ .panic) (ht : a.mayPanic = false → ∀ t w, cloneT t w ≠ .panic)
    (hf : a.mayPanic = false → ∀ c w, f c w ≠ .panic) (hp : a.mayPanic = false → ∀ t w, p t w ≠ .panic)
    (hg : a.mayPanic = false → ∀ c w, g c w ≠ .panic) :
    (a.chunkDependent = true → Built a (Cloned.peek clone)) ∧ Built a (Cloned.peekNext clone) ∧
    Built a (Cloned.satisfyWith clone cloneT v f p) ∧ Built a (Cloned.takeTill clone g) := by
  have bnd : ∀ {A B : Type} (x : A → M σ A) (k : A → M σ B), (∀ c w, x c w ≠ .panic) → (∀ c w, k c w ≠ .panic) →
      ∀ c w, (x c >>= k) w ≠ .panic := by
    intro A B x k hx hk c w
    rw [M.bind_apply]
    cases h : x c w with
    | ok y => exact hk y.1 y.2
    | panic => exact absurd h (hx c w)
    | ub => nofun
    | div => nofun
  obtain ⟨e1, e2, e3⟩ := C106_composed clone cloneT v f p
  refine ⟨fun h => ?_, ?_, ?_, ?_⟩
  · rw [e1]
    refine .mapM _ (fun hm o w => ?_) (.peek h)
    cases o with
    | none => nofun
    | some c => exact bnd clone (fun c' => pure (some c')) (hc hm) (fun _ _ => nofun) c w
  · rw [e2]
    exact .mapM _ hc .peekNext
  · rw [e3]
    exact .satisfyWithM _ _ _ fun hm => ⟨bnd clone f (hc hm) (hf hm), bnd cloneT p (ht hm) (hp hm)⟩
  · rw [C106_take_till]
    exact .takeTillM _ fun hm => bnd clone g (hc hm) (hg hm)

/-- The parsers which look at an item without taking it, and the one which does take it, agree on what it is
exactly if cloning makes a copy: `peek_next` and then `any` give the same item twice on all inputs if and only
if `clone` returns what it gets (and if it returns). -/
theorem C106_agree (clone : I → M Unit I) :
    (∀ m c r, Cloned.peekNext clone ⟨m, c :: r⟩ () = .ok (.data ⟨m, c :: r⟩ c, ())) ↔
      ∀ c, clone c () = .ok (c, ()) := by
  constructor
  · intro h c
    have h1 := h .endOfInput c []
    rw [(C106_peek_next clone _ ()).2] at h1
    cases h2 : clone c () with
    | ok x =>
      rw [h2, Res.bind_ok] at h1
      simp only [Res.ok.injEq, Prod.mk.injEq, ParseResult.data.injEq] at h1
      rw [← h1.1.2]
    | _ => rw [h2] at h1; cases h1
  · intro h m c r
    rw [(C106_peek_next clone m ()).2, h c, Res.bind_ok]

/-! ### Examples -/

namespace CloneEx

/-- `Clone` which counts. -/
def counting (c : Char) : M Nat Char := fun n => .ok (c, n + 1)

/-- `take_till` clones the items up to the one at which it stops, that one included. -/
example : Cloned.takeTill counting (fun c => pure (c == ' ')) ⟨.default, ['a', 'b', ' ', 'c']⟩ 0 =
    .ok (.data ⟨.default, [' ', 'c']⟩ ['a', 'b'], 3) := by decide

/-- `satisfy_with` clones once, what it maps to not counted. -/
example : Cloned.satisfyWith counting pure true (fun c => pure c.toNat) (fun n => pure (n == 97))
    ⟨.default, ['a', 'b']⟩ 0 = .ok (.data ⟨.default, ['b']⟩ 97, 1) := by decide

/-- A `Clone` which is no copy: upper case. -/
def upper (c : Char) : M Unit Char := pure c.toUpper

/-- The mapped item gets the clone, the slice is the original. -/
example : Cloned.peekNext upper ⟨.default, ['a']⟩ () = .ok (.data ⟨.default, ['a']⟩ 'A', ()) ∧
    Parsers.any ⟨.default, ['a']⟩ () = .ok (.data ⟨.default, []⟩ 'a', ()) ∧
    Cloned.takeTill upper (fun c => pure (c == 'B')) ⟨.default, ['a', 'b']⟩ () =
      .ok (.data ⟨.default, ['b']⟩ ['a'], ()) := by decide

/-- `Clone` which panics on one item: a parser with it may panic, but is assembled from the library. -/
def refuses (c : Char) : M Unit Char := if c = 'x' then M.panic else pure c

example : Cloned.peekNext refuses ⟨.default, ['x']⟩ () = .panic := by decide

example : Stable (Cloned.takeTill refuses fun c => pure (c == ' ')) :=
  C07_stable (C106_built (a := streaming) (T := Unit) refuses pure true (fun _ => pure ()) (fun _ => pure true)
    (fun c => pure (c == ' ')) nofun nofun nofun nofun nofun).2.2.2

end CloneEx

end Chomp.Props
