import Verif.Rust.Places
import Verif.Rust.Skip

/-
The texts of /repo/src/buffer/data_source.rs and /repo/src/buffer/buffer.rs do what their models say.
-/

set_option linter.unusedSimpArgs false

namespace Chomp.Rust

variable {σ X Y S : Type}

variable [Build] (W : World σ X Y)

attribute [local simp] apply eval evals callStd callMethod_eq receiver matchPats matchPat find Val.field
  index constant binop stdByMut stdCall stdMut optV indexSlice indexVec indexMut place stdMethod

attribute [local simp] getField setField Val.set Val.at Val.put

attribute [-simp] bind_pure_comp

omit [Build] in
@[simp] theorem typeOf_vec (mem : List (Option X)) (cap : Nat) (extra : Nat → Nat) (allocs : Nat) :
    typeOf (.vec mem cap extra allocs : Val X Y) = "-" := rfl
omit [Build] in
@[simp] theorem deref_vec (mem : List (Option X)) (cap : Nat) (extra : Nat → Nat) (allocs : Nat) :
    (deref (.vec mem cap extra allocs) : RM σ X Y _) = pure (.vec mem cap extra allocs) := rfl
omit [Build] in
theorem deref_loc' (a : Nat) (p : List String) : (deref (.loc a p) : RM σ X Y _) = read a p := rfl

theorem usubB_checked (m n : Nat) : usubB Build.checked m n = usub m n := rfl

omit [Build] in
@[simp] theorem lift_ok' (x : α) : (M.lift (.ok x) : M σ α) = pure x := rfl
omit [Build] in
@[simp] theorem lift_panic : (M.lift .panic : M σ α) = M.panic := rfl
omit [Build] in
@[simp] theorem lift_ub : (M.lift .ub : M σ α) = M.ub := rfl
omit [Build] in
theorem lift_congr {x : Res α} {f g : α → M σ β} (h : ∀ a, f a = g a) : (M.lift x >>= f) = (M.lift x >>= g) := by
  rw [funext h]
omit [Build] in
theorem ub_bind (f : α → M σ β) : (M.ub >>= f) = M.ub := rfl

attribute [local simp] panic_bind ub_bind

/-- `FixedSizeBuffer`, src/buffer/buffer.rs:62-72. The capacity of the `Vec` is not in the model. -/
def ofFixed (cap : Nat) (extra : Nat → Nat) (allocs : Nat) (b : FixedSizeBuffer X) : Val X Y :=
  .strct "FixedSizeBuffer" [("buffer", .vec b.buffer cap extra allocs), ("populated", .nat b.populated),
    ("used", .nat b.used)]

variable (cap : Nat) (extra : Nat → Nat) (allocs : Nat)

theorem Fixed_len (b : FixedSizeBuffer X) :
    callFn W Text.FixedSizeBuffer_len [ofFixed cap extra allocs b]
      = toR (do let n ← M.lift (b.len Build.checked); pure (.nat n)) := by
  rw [callFn]
  simp [Text.FixedSizeBuffer_len, ofFixed, scope_none, FixedSizeBuffer.len, usubB_checked]


theorem Fixed_capacity (b : FixedSizeBuffer X) :
    callFn W Text.FixedSizeBuffer_capacity [ofFixed cap extra allocs b] = pure (.nat b.capacity) := by
  rw [callFn]
  simp [Text.FixedSizeBuffer_capacity, ofFixed, scope_none, FixedSizeBuffer.capacity]

theorem Fixed_deref (b : FixedSizeBuffer X) :
    callFn W Text.FixedSizeBuffer_deref [ofFixed cap extra allocs b]
      = toR (do let l ← M.lift b.deref; pure (.slice l)) := by
  rw [callFn]
  simp [Text.FixedSizeBuffer_deref, ofFixed, scope_none, FixedSizeBuffer.deref]

variable {a : Nat} {p : List String} {F : Val X Y → List (Val X Y)}

omit [Build] in
theorem next_left {x x' : Except (Stop X Y) α × List (Val X Y)} (h : x = x') (f : α → RM σ X Y β) :
    next_ f x = next_ f x' := by rw [h]

attribute [local congr] bind_left bind_left' next_left

theorem Fixed_consume (hF : Ref a p F) (b : FixedSizeBuffer X) (n : Nat) :
    at_ (callFn W Text.FixedSizeBuffer_consume [.loc a p, .nat n]) (F (ofFixed cap extra allocs b))
      = (do
        let b ← M.lift (b.consume Build.checked n)
        pure (.ok .unit, F (ofFixed cap extra allocs b))) := by
  rw [callFn]
  by_cases hc : Build.checked = true
  · simp [Text.FixedSizeBuffer_consume, ofFixed, scope_none, at_bind, at_catchRet, deref_loc', hF.read, hF.read_field,
      hF.write_field, hc, FixedSizeBuffer.consume, debugAssert]
    by_cases h1 : b.used + n ≤ usizeMax
    · by_cases h2 : b.used + n ≤ b.populated
      · simp [uaddB, h1, h2, at_bind, at_catchRet, deref_loc', hF.read, hF.read_field, hF.write_field, hc]
        simp [h1, h2, at_bind, at_catchRet, deref_loc', hF.read, hF.read_field, hF.write_field, Nat.not_lt.2 h2]
      · simp [uaddB, h1, h2]
        simp [h2, Nat.lt_of_not_le h2]
    · simp [uaddB, h1]
      split <;> rfl
  · simp [Text.FixedSizeBuffer_consume, ofFixed, scope_none, at_bind, at_catchRet, deref_loc', hF.read, hF.read_field,
      hF.write_field, hc, FixedSizeBuffer.consume, debugAssert]

theorem Fixed_request_space (hF : Ref a p F) (b : FixedSizeBuffer X) (n : Nat) :
    at_ (callFn W Text.FixedSizeBuffer_request_space [.loc a p, .nat n]) (F (ofFixed cap extra allocs b))
      = (do
        let b ← M.lift (b.requestSpace Build.checked n)
        pure (.ok .unit, F (ofFixed cap extra allocs b))) := by
  rw [callFn]
  by_cases hc : b.populated ≥ b.used
  · simp [Text.FixedSizeBuffer_request_space, ofFixed, scope_none, at_bind, at_catchRet, deref_loc', hF.read, hF.read_field, hF.write_field, hc,
      FixedSizeBuffer.requestSpace, assert, usubB_checked]
    refine lift_congr fun m => ?_
    by_cases hm : m < n
    · simp [hm, ofFixed, scope_none, at_bind, at_catchRet, deref_loc', hF.read, hF.read_field, hF.write_field]
      refine lift_congr fun m => ?_
      simp [hm, ofFixed, scope_none, at_bind, at_catchRet, deref_loc', hF.read, hF.read_field, hF.write_field, stdPtrCopy]
    · simp [hm, ofFixed, scope_none, at_bind, at_catchRet, deref_loc', hF.read, hF.read_field, hF.write_field]
  · simp [Text.FixedSizeBuffer_request_space, ofFixed, scope_none, at_bind, at_catchRet, deref_loc', hF.read, hF.read_field, hF.write_field, hc,
      FixedSizeBuffer.requestSpace, assert]

/-! ### Data sources -/

variable [DataSource S X] (es : S → Val X Y)

/-- `s.read(&mut v[m..])` does what the data source does. -/
def Reads : Prop :=
  ∀ (a c : Nat) (p q : List String) (F : Val X Y → Val X Y → List (Val X Y)) (s : S) (mem : List (Option X)) (cap : Nat)
    (extra : Nat → Nat) (allocs m : Nat), (∀ s, Ref a p (F s)) → (∀ v, Ref c q (fun s => F s v)) →
    mem.length ≤ usizeMax → m ≤ mem.length →
    at_ (callMethod W (some (c, q)) (es s) "read" [.con "SliceMut" [.loc a p, .nat m, .nat mem.length]])
        (F (es s) (.vec mem cap extra allocs))
      = pure (.ok (ofIo (DataSource.read s (mem.length - m)).1.result), F (es (DataSource.read s (mem.length - m)).2)
          (.vec (mem.take m ++ overlay (mem.drop m) (DataSource.read s (mem.length - m)).1.writes) cap extra allocs))

variable {es}

set_option maxHeartbeats 1000000 in
theorem Fixed_fill {a c : Nat} {p q : List String} {F : Val X Y → Val X Y → List (Val X Y)} (hb : ∀ s, Ref a p (F s))
    (hs : ∀ v, Ref c q (fun s => F s v)) (hS : Reads W es) (s : S) (b : FixedSizeBuffer X)
    (hl : b.buffer.length ≤ usizeMax) :
    at_ (callFn W Text.FixedSizeBuffer_fill [.loc a p, .loc c q]) (F (es s) (ofFixed cap extra allocs b))
      = (do
        let r ← M.lift (b.fill Build.checked s)
        pure (.ok (ofIo r.1), F (es r.2.1) (ofFixed cap extra allocs r.2.2))) := by
  have hR := fun s v => (hs v).read (σ := σ) s
  rw [callFn]
  by_cases h : b.populated ≤ b.buffer.length
  · simp [-callMethod_eq, Text.FixedSizeBuffer_fill, ofFixed, scope_none, at_bind, at_catchRet, deref_loc', (hb _).read, (hb _).read_field,
      hR, h]
    rw [hS a c (p ++ ["buffer"]) q (fun s v => F s (.strct "FixedSizeBuffer" [("buffer", v), ("populated", Val.nat b.populated),
      ("used", Val.nat b.used)])) s _ _ _ _ _ (fun s => (hb s).field _ "buffer" (by simp) (by simp)) (fun v => hs _) hl h]
    rw [FixedSizeBuffer.fill, if_pos h]
    generalize DataSource.read s (b.buffer.length - b.populated) = r
    obtain ⟨⟨ws, r⟩, s'⟩ := r
    dsimp only
    generalize b.buffer.take b.populated ++ overlay (b.buffer.drop b.populated) ws = mem
    cases r with
    | error e => simp [ofIo]
    | ok n =>
      by_cases hc : Build.checked = true
      · by_cases h1 : b.populated + n ≤ usizeMax
        · by_cases h2 : b.populated + n ≤ mem.length
          · simp [ofIo, scope_none, at_bind, at_catchRet, deref_loc', (hb _).read, (hb _).read_field, (hb _).write_field, hc,
              debugAssert, h2, uaddB, h1]
          · simp [ofIo, scope_none, at_bind, at_catchRet, deref_loc', (hb _).read, (hb _).read_field, (hb _).write_field, hc,
              debugAssert, h2, uaddB, h1]
        · simp [ofIo, scope_none, at_bind, at_catchRet, deref_loc', (hb _).read, (hb _).read_field, (hb _).write_field, hc,
              debugAssert, uaddB, h1]
          split <;> rfl
      · simp [ofIo, scope_none, at_bind, at_catchRet, deref_loc', (hb _).read, (hb _).read_field, (hb _).write_field, hc,
          debugAssert]
  · simp [-callMethod_eq, Text.FixedSizeBuffer_fill, ofFixed, scope_none, at_bind, at_catchRet, deref_loc', (hb _).read, (hb _).read_field,
      hR, h, FixedSizeBuffer.fill]

/-! ### GrowingBuffer -/

/-- `GrowingBuffer`, src/buffer/buffer.rs:174-184. -/
def ofGrowing (b : GrowingBuffer X) : Val X Y :=
  .strct "GrowingBuffer" [("buffer", .vec b.buffer b.cap b.extra b.allocs), ("populated", .nat b.populated),
    ("limit", .nat b.limit), ("used", .nat b.used)]

theorem Growing_len (b : GrowingBuffer X) :
    callFn W Text.GrowingBuffer_len [ofGrowing b]
      = toR (do let n ← M.lift (b.len Build.checked); pure (.nat n)) := by
  rw [callFn]
  simp [Text.GrowingBuffer_len, ofGrowing, scope_none, GrowingBuffer.len, usubB_checked]


theorem Growing_capacity (b : GrowingBuffer X) :
    callFn W Text.GrowingBuffer_capacity [ofGrowing b] = pure (.nat b.capacity) := by
  rw [callFn]
  simp [Text.GrowingBuffer_capacity, ofGrowing, scope_none, GrowingBuffer.capacity]

theorem Growing_deref (b : GrowingBuffer X) :
    callFn W Text.GrowingBuffer_deref [ofGrowing b]
      = toR (do let l ← M.lift b.deref; pure (.slice l)) := by
  rw [callFn]
  simp [Text.GrowingBuffer_deref, ofGrowing, scope_none, GrowingBuffer.deref]

theorem Growing_consume (hF : Ref a p F) (b : GrowingBuffer X) (n : Nat) :
    at_ (callFn W Text.GrowingBuffer_consume [.loc a p, .nat n]) (F (ofGrowing b))
      = (do
        let b ← M.lift (b.consume Build.checked n)
        pure (.ok .unit, F (ofGrowing b))) := by
  rw [callFn]
  by_cases hc : Build.checked = true
  · simp [Text.GrowingBuffer_consume, ofGrowing, scope_none, at_bind, at_catchRet, deref_loc', hF.read, hF.read_field,
      hF.write_field, hc, GrowingBuffer.consume, debugAssert]
    by_cases h1 : b.used + n ≤ usizeMax
    · by_cases h2 : b.used + n ≤ b.populated
      · simp [uaddB, h1, h2, at_bind, at_catchRet, deref_loc', hF.read, hF.read_field, hF.write_field, hc]
        simp [h1, h2, at_bind, at_catchRet, deref_loc', hF.read, hF.read_field, hF.write_field, Nat.not_lt.2 h2]
      · simp [uaddB, h1, h2]
        simp [h2, Nat.lt_of_not_le h2]
    · simp [uaddB, h1]
      split <;> rfl
  · simp [Text.GrowingBuffer_consume, ofGrowing, scope_none, at_bind, at_catchRet, deref_loc', hF.read, hF.read_field,
      hF.write_field, hc, GrowingBuffer.consume, debugAssert]

set_option maxHeartbeats 1000000 in
theorem Growing_fill {a c : Nat} {p q : List String} {F : Val X Y → Val X Y → List (Val X Y)} (hb : ∀ s, Ref a p (F s))
    (hs : ∀ v, Ref c q (fun s => F s v)) (hS : Reads W es) (s : S) (b : GrowingBuffer X)
    (hl : b.buffer.length ≤ usizeMax) :
    at_ (callFn W Text.GrowingBuffer_fill [.loc a p, .loc c q]) (F (es s) (ofGrowing b))
      = (do
        let r ← M.lift (b.fill Build.checked s)
        pure (.ok (ofIo r.1), F (es r.2.1) (ofGrowing r.2.2))) := by
  have hR := fun s v => (hs v).read (σ := σ) s
  rw [callFn]
  by_cases h : b.populated ≤ b.buffer.length
  · simp [-callMethod_eq, Text.GrowingBuffer_fill, ofGrowing, scope_none, at_bind, at_catchRet, deref_loc', (hb _).read, (hb _).read_field,
      hR, h]
    rw [hS a c (p ++ ["buffer"]) q (fun s v => F s (.strct "GrowingBuffer" [("buffer", v), ("populated", Val.nat b.populated),
      ("limit", Val.nat b.limit), ("used", Val.nat b.used)])) s _ _ _ _ _ (fun s => (hb s).field _ "buffer" (by simp) (by simp)) (fun v => hs _) hl h]
    rw [GrowingBuffer.fill, if_pos h]
    generalize DataSource.read s (b.buffer.length - b.populated) = r
    obtain ⟨⟨ws, r⟩, s'⟩ := r
    dsimp only
    generalize b.buffer.take b.populated ++ overlay (b.buffer.drop b.populated) ws = mem
    cases r with
    | error e => simp [ofIo]
    | ok n =>
      by_cases hc : Build.checked = true
      · by_cases h1 : b.populated + n ≤ usizeMax
        · by_cases h2 : b.populated + n ≤ mem.length
          · simp [ofIo, scope_none, at_bind, at_catchRet, deref_loc', (hb _).read, (hb _).read_field, (hb _).write_field, hc,
              debugAssert, h2, uaddB, h1]
          · simp [ofIo, scope_none, at_bind, at_catchRet, deref_loc', (hb _).read, (hb _).read_field, (hb _).write_field, hc,
              debugAssert, h2, uaddB, h1]
        · simp [ofIo, scope_none, at_bind, at_catchRet, deref_loc', (hb _).read, (hb _).read_field, (hb _).write_field, hc,
              debugAssert, uaddB, h1]
          split <;> rfl
      · simp [ofIo, scope_none, at_bind, at_catchRet, deref_loc', (hb _).read, (hb _).read_field, (hb _).write_field, hc,
          debugAssert]
  · simp [-callMethod_eq, Text.GrowingBuffer_fill, ofGrowing, scope_none, at_bind, at_catchRet, deref_loc', (hb _).read, (hb _).read_field,
      hR, h, GrowingBuffer.fill]

end Chomp.Rust
