import Verif.Rust.Loops

/-
Places in memory: an address, and what the memory is for each value at it.
-/

namespace Chomp.Rust

variable {σ X Y : Type}

/-- `F v` is the memory with `v` at the address. -/
structure Ref (a : Nat) (p : List String) (F : Val X Y → List (Val X Y)) : Prop where
  get : ∀ v, (F v)[a]?.bind (·.at p) = some v
  put : ∀ v u, ∃ c, (F v)[a]?.bind (·.put u p) = some c ∧ (F v).set a c = F u

theorem Val.at_append (v : Val X Y) (p q : List String) : v.at (p ++ q) = (v.at p).bind (·.at q) := by
  induction p generalizing v with
  | nil => rfl
  | cons x p ih =>
    show (v.field x).bind (·.at (p ++ q)) = ((v.field x).bind (·.at p)).bind _
    rw [Option.bind_assoc]
    exact congrArg _ (funext fun w => ih w)

theorem Val.put_snoc (v u : Val X Y) (p : List String) (x : String) :
    v.put u (p ++ [x]) = (v.at p).bind fun w => (w.field x).bind fun _ => (w.set x u).bind fun w' => v.put w' p := by
  induction p generalizing v with
  | nil =>
    show ((v.field x).bind fun w => (some u).bind fun y => v.set x y) = (v.field x).bind fun _ => (v.set x u).bind some
    simp
  | cons y p ih =>
    show ((v.field y).bind fun w => (w.put u (p ++ [x])).bind fun z => v.set y z)
      = ((v.field y).bind (·.at p)).bind fun w => (w.field x).bind fun _ => (w.set x u).bind fun w' =>
        (v.field y).bind fun z => (z.put w' p).bind fun z => v.set y z
    cases hf : v.field y with
    | none => rfl
    | some f => simp [ih, Option.bind_assoc]

namespace Ref
variable {a : Nat} {p : List String} {F : Val X Y → List (Val X Y)} (h : Ref a p F)
include h

theorem length (v u : Val X Y) : (F v).length = (F u).length := by
  obtain ⟨c, -, h2⟩ := h.put v u
  rw [← h2]
  simp

theorem read (v : Val X Y) : at_ (read a p : RM σ X Y _) (F v) = pure (.ok v, F v) := by
  rw [at_read, h.get]
  rfl

theorem write (v u : Val X Y) : at_ (write a p u : RM σ X Y _) (F v) = pure (.ok (), F u) := by
  obtain ⟨c, h1, h2⟩ := h.put v u
  rw [at_write, h1]
  show (pure (Except.ok (), (F v).set a c) : M σ _) = _
  rw [h2]

theorem read_field (v : Val X Y) (x : String) :
    at_ (Rust.read a (p ++ [x]) : RM σ X Y _) (F v) = at_ (must (v.field x)) (F v) := by
  rw [at_read]
  congr 2
  have := h.get v
  cases hc : (F v)[a]? with
  | none => rw [hc] at this; cases this
  | some c =>
    rw [hc] at this
    show c.at (p ++ [x]) = _
    rw [Val.at_append]
    rw [show c.at p = some v from this]
    show (v.field x).bind some = _
    simp

theorem put_field (v u : Val X Y) (x : String) : (F v)[a]?.bind (·.put u (p ++ [x]))
    = (v.field x).bind fun _ => (v.set x u).bind fun v' => (F v)[a]?.bind (·.put v' p) := by
  have := h.get v
  cases hc : (F v)[a]? with
  | none => rw [hc] at this; cases this
  | some c =>
    rw [hc] at this
    show c.put u (p ++ [x]) = _
    rw [Val.put_snoc, show c.at p = some v from this]
    rfl

theorem write_field (v u : Val X Y) (x : String) :
    at_ (Rust.write a (p ++ [x]) u : RM σ X Y _) (F v)
      = at_ (must ((v.field x).bind fun _ => v.set x u)) (F v) >>= next_ (fun v' => ExceptT.lift (set (F v'))) := by
  rw [at_write, h.put_field]
  cases hf : v.field x with
  | none => rfl
  | some f =>
    cases hs : v.set x u with
    | none => rfl
    | some v' =>
      obtain ⟨c, h1, h2⟩ := h.put v v'
      show at_ (must ((F v)[a]?.bind (·.put v' p))) (F v) >>= _ = _
      rw [h1]
      show (pure (Except.ok PUnit.unit, (F v).set a c) : M σ _) = pure (Except.ok PUnit.unit, F v')
      rw [h2]

/-- A field. -/
theorem field (G : Val X Y → Val X Y) (x : String) (hf : ∀ u, (G u).field x = some u)
    (hs : ∀ u w, (G u).set x w = some (G w)) : Ref a (p ++ [x]) (fun u => F (G u)) where
  get v := by
    have := h.get (G v)
    cases hc : (F (G v))[a]? with
    | none => rw [hc] at this; cases this
    | some c =>
      rw [hc] at this
      show c.at (p ++ [x]) = _
      rw [Val.at_append, show c.at p = some (G v) from this]
      show ((G v).field x).bind some = _
      rw [hf]
      rfl
  put v u := by
    obtain ⟨c, h1, h2⟩ := h.put (G v) (G u)
    refine ⟨c, ?_, h2⟩
    rw [h.put_field, hf, hs]
    exact h1

/-- With further cells. -/
theorem append (suf : List (Val X Y)) : Ref a p (fun v => F v ++ suf) where
  get v := by
    have := h.get v
    cases hc : (F v)[a]? with
    | none => rw [hc] at this; cases this
    | some c =>
      rw [List.getElem?_append_left (List.getElem?_eq_some_iff.1 hc).1, hc]
      rw [hc] at this
      exact this
  put v u := by
    obtain ⟨c, h1, h2⟩ := h.put v u
    refine ⟨c, ?_, ?_⟩
    · have := h.get v
      cases hc : (F v)[a]? with
      | none => rw [hc] at this; cases this
      | some d =>
        rw [List.getElem?_append_left (List.getElem?_eq_some_iff.1 hc).1, hc]
        rw [hc] at h1
        exact h1
    · have := h.get v
      cases hc : (F v)[a]? with
      | none => rw [hc] at this; cases this
      | some d =>
        show (F v ++ suf).set a c = _
        rw [List.set_append_left _ _ (List.getElem?_eq_some_iff.1 hc).1, h2]

end Ref

/-- Call a function of the crate from outside, with variables in memory. Yields the value and the variables. -/
def runWith [Build] (W : World σ X Y) (f : Fn) (vs st : List (Val X Y)) : M σ (Val X Y × List (Val X Y)) := do
  let (r, st) ← (callFn W f vs).run.run st
  match r with
  | .ok v => pure (v, st)
  | .error _ => M.ub

theorem runWith_eq [Build] {W : World σ X Y} {f : Fn} {vs st : List (Val X Y)} {x : M σ α} {v : α → Val X Y}
    {st' : α → List (Val X Y)} (h : at_ (callFn W f vs) st = (do let a ← x; pure (.ok (v a), st' a))) :
    runWith W f vs st = (do let a ← x; pure (v a, st' a)) := by
  show at_ (callFn W f vs) st >>= _ = _
  rw [h, bind_assoc]
  rfl

/-- A cell. -/
theorem Ref.cell (pre suf : List (Val X Y)) : Ref pre.length [] (fun v => pre ++ v :: suf) where
  get v := by simp
  put v u := ⟨u, by simp, by simp⟩

end Chomp.Rust
