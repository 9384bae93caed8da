import Verif.Rust.Growing

/-
The texts of /repo/src/buffer/data_source.rs do what their models say.
-/

set_option linter.unusedSimpArgs false

namespace Chomp.Rust

variable {σ X Y S J : Type}

variable [Build] (W : World σ X Y)

attribute [local simp] apply eval evals callStd callMethod_eq receiver matchPats matchPat find Val.field
  index constant binop stdByMut stdCall stdMut optV indexSlice indexVec indexMut place stdMethod

attribute [local simp] getField setField Val.set Val.at Val.put

attribute [-simp] bind_pure_comp

attribute [local simp] panic_bind ub_bind

attribute [local congr] bind_left bind_left' next_left

omit [Build] in
theorem storeAt_end (mem : List (Option X)) (m : Nat) (ws : List (Option X)) :
    storeAt mem m mem.length ws = mem.take m ++ overlay (mem.drop m) ws := by
  simp [storeAt]

/-- A data source of the user. -/
theorem Reads.user [DataSource S X] (y : S → Y)
    (h : ∀ s k, W.read (y s) k = ((DataSource.read s k).1, y (DataSource.read s k).2)) :
    Reads W (fun s : S => .other (y s)) := by
  intro a c p q F s mem cap extra allocs m hb hs hl hm
  have hW := fun s v u => (hs v).write (σ := σ) s u
  have hR := fun s v => (hb s).read (σ := σ) v
  have hV := fun s v u => (hb s).write (σ := σ) v u
  simp [at_bind, h, hW, store, hR, hV, storeAt_end]

/-- `ReadDataSource` with a reader of the user. -/
theorem Reads.reader {R : Type} {W : World σ UInt8 Y} [DataSource R UInt8] (y : R → Y)
    (h : ∀ s k, W.read (y s) k = ((DataSource.read s k).1, y (DataSource.read s k).2)) :
    Reads W (fun s : ReadDataSource R => .con "ReadDataSource" [.other (y s.inner)]) := by
  intro a c p q F s mem cap extra allocs m hb hs hl hm
  have hR := fun s v => (hs v).read (σ := σ) s
  have hf := fun s v x u => (hs v).write_field (σ := σ) s x u
  have hA := fun s v => (hb s).read (σ := σ) v
  have hV := fun s v u => (hb s).write (σ := σ) v u
  simp
  rw [callFn]
  simp [Text.ReadDataSource_read, at_bind, at_catchRet, scope_none, deref_loc', hR, hf, h, hA, hV, store, storeAt_end]
  rfl

/-- The body of the loop of `IteratorDataSource::read`. -/
def iterBody : Expr :=
  match Text.IteratorDataSource_read.body with
  | .letIn _ _ (.seq (.loop b) _) => b
  | e => e

omit [Build] in
theorem iterate_go {body : RM σ X Y α} {st st' : List (Val X Y)} {v : α} (h : at_ body st = pure (.ok v, st')) :
    at_ (iterate body) st = at_ (iterate body) st' := by
  show loop _ st = loop _ st'
  rw [loop]
  show (body st >>= _) >>= _ = _
  rw [show body st = _ from h]
  rfl

omit [Build] in
theorem iterate_brk {body : RM σ X Y α} {st st' : List (Val X Y)} (h : at_ body st = pure (.error .brk, st')) :
    at_ (iterate body) st = pure (.ok .unit, st') := by
  show loop _ st = _
  rw [loop]
  show (body st >>= _) >>= _ = _
  rw [show body st = _ from h]
  rfl

variable [Iter J X]

/-- The variables of the loop. -/
abbrev iterEnv (L a c : Nat) (p q : List String) (m n : Nat) : Env X Y :=
  [("n", .inr L), ("buffer", .inl (.con "SliceMut" [.loc a p, .nat m, .nat n])), ("self", .inl (.loc c q))]

omit [Build] [Iter J X] in
theorem storeAt_one (mem : List (Option X)) (k : Nat) (x : X) (h : k < mem.length) :
    storeAt mem k (k + 1) [some x] = mem.take k ++ some x :: mem.drop (k + 1) := by
  have hk : (mem.take k).length = k := by simp; omega
  unfold storeAt
  have h3 : (mem.take (k + 1)).drop k = [mem[k]] := by
    rw [List.take_succ_eq_append_getElem h, List.drop_append_of_le_length (by omega)]
    simp [hk]
  rw [h3]
  rfl

omit [Build] [Iter J X] in
theorem overlay_cons (mem ws : List (Option X)) (k : Nat) (x : X) (h : k < mem.length) :
    (storeAt mem k (k + 1) [some x]).take (k + 1) ++ overlay ((storeAt mem k (k + 1) [some x]).drop (k + 1)) ws
      = mem.take k ++ overlay (mem.drop k) (some x :: ws) := by
  have hk : (mem.take k).length = k := by simp; omega
  have h4 : mem.drop k = mem[k] :: mem.drop (k + 1) := List.drop_eq_getElem_cons h
  rw [storeAt_one _ _ _ h, h4]
  generalize mem.drop (k + 1) = r
  generalize mem.take k = t at hk ⊢
  generalize mem[k] = z
  clear h4 h
  subst hk
  have e1 : (t ++ some x :: r).take (t.length + 1) = t ++ [some x] := by
    rw [List.take_append, List.take_of_length_le (by omega)]; simp
  have e2 : (t ++ some x :: r).drop (t.length + 1) = r := by
    rw [List.drop_append]; simp
  rw [e1, e2]
  simp [overlay]

theorem iter_loop (y : J → Y) (h : ∀ j, W.next (y j) = ((Iter.next j).1, y (Iter.next j).2))
    {L a c : Nat} {p q : List String} {F : Val X Y → Val X Y → List (Val X Y)} (hL : ∀ s v, (F s v).length = L)
    (hb : ∀ s, Ref a p (F s)) (hs : ∀ v, Ref c q fun s => F s v) (cap : Nat) (extra : Nat → Nat) (allocs m : Nat)
    (k : Nat) : ∀ (j : J) (n : Nat) (mem : List (Option X)), mem.length ≤ usizeMax → m + n + k = mem.length →
    at_ (iterate (eval W (iterEnv L a c p q m mem.length) iterBody))
        (F (.con "IteratorDataSource" [.other (y j)]) (.vec mem cap extra allocs) ++ [.nat n])
      = pure (.ok .unit, F (.con "IteratorDataSource" [.other (y (iterRead k j).2)])
          (.vec (mem.take (m + n) ++ overlay (mem.drop (m + n)) ((iterRead k j).1.map some)) cap extra allocs)
          ++ [.nat (n + (iterRead k j).1.length)]) := by
  have hc : ∀ s v, Ref L [] (fun u => F s v ++ [u]) := by
    intro s v
    rw [← hL s v]
    exact Ref.cell _ []
  have hcR := fun s v u => (hc s v).read (σ := σ) u
  have hcW := fun s v u u' => (hc s v).write (σ := σ) u u'
  have hsR := fun s v u => ((hs v).append [u]).read (σ := σ) s
  have hsf := fun s v u x u' => ((hs v).append [u]).write_field (σ := σ) s x u'
  have hbR := fun s v u => ((hb s).append [u]).read (σ := σ) v
  have hbW := fun s v u v' => ((hb s).append [u]).write (σ := σ) v v'
  induction k with
  | zero =>
    intro j n mem hl hk
    have hn : ¬ n < mem.length - m := by omega
    refine (iterate_brk (st' := F (.con "IteratorDataSource" [.other (y j)]) (.vec mem cap extra allocs) ++ [.nat n]) ?_).trans ?_
    · simp [iterBody, Text.IteratorDataSource_read, at_bind, hcR, hn]
    · have h0 : mem.drop (m + n) = [] := List.drop_eq_nil_of_le (by omega)
      have h1 : mem.take (m + n) = mem := List.take_of_length_le (by omega)
      simp [iterRead, h0, h1, overlay]
  | succ k ih =>
    intro j n mem hl hk
    have hn : n < mem.length - m := by omega
    rcases hj : Iter.next j with ⟨o, j'⟩
    cases o with
    | none =>
      refine (iterate_brk (st' := F (.con "IteratorDataSource" [.other (y j')]) (.vec mem cap extra allocs) ++ [.nat n]) ?_).trans ?_
      · simp [iterBody, Text.IteratorDataSource_read, at_bind, hcR, hn, deref_loc', hsR, hsf, h, hj, evalArms]
      · have h1 : overlay (mem.drop (m + n)) [] = mem.drop (m + n) := by
          cases mem.drop (m + n) <;> rfl
        simp [iterRead, hj, h1]
    | some x =>
      have hu : n + 1 ≤ usizeMax := by omega
      refine (iterate_go (st' := F (.con "IteratorDataSource" [.other (y j')])
        (.vec (storeAt mem (m + n) (m + n + 1) [some x]) cap extra allocs) ++ [.nat (n + 1)]) (v := .unit) ?_).trans ?_
      · simp [iterBody, Text.IteratorDataSource_read, at_bind, hcR, hn, deref_loc', hsR, hsf, h, hj, evalArms, scope_none,
          assignAt, store, hbR, hbW, hcW, uaddB, hu]
      · have hlen : (storeAt mem (m + n) (m + n + 1) [some x]).length = mem.length := by
          rw [storeAt_one _ _ _ (by omega)]
          simp
          omega
        have := ih j' (n + 1) (storeAt mem (m + n) (m + n + 1) [some x]) (by omega) (by omega)
        rw [hlen] at this
        rw [this]
        simp only [← Nat.add_assoc]
        rw [overlay_cons _ _ _ _ (by omega)]
        have hi : iterRead (k + 1) j = (x :: (iterRead k j').1, (iterRead k j').2) := by simp [iterRead, hj]
        rw [hi, List.map_cons, List.length_cons, show n + 1 + (iterRead k j').1.length = n + ((iterRead k j').1.length + 1) by omega]

/-- `IteratorDataSource` with an iterator of the user. -/
theorem Reads.iter (y : J → Y) (h : ∀ j, W.next (y j) = ((Iter.next j).1, y (Iter.next j).2)) :
    Reads W (fun s : IteratorDataSource J => .con "IteratorDataSource" [.other (y s.inner)]) := by
  intro a c p q F s mem cap extra allocs m hb hs hl hm
  have hR := fun s v => (hs v).read (σ := σ) s
  have hL : ∀ s' v', (F s' v').length = (F (.con "IteratorDataSource" [.other (y s.inner)]) (.vec mem cap extra allocs)).length :=
    fun s' v' => ((hs v').length s' _).trans ((hb _).length v' _)
  have hl := iter_loop W y h hL hb hs cap extra allocs m (mem.length - m) s.inner 0 mem hl (by omega)
  have hT : Text.IteratorDataSource_read.body
    = .letIn (.bind true "n") (.num 0) (.seq (.loop iterBody) (.con "Ok" [.path "n"])) := rfl
  have hp : Text.IteratorDataSource_read.params = [.bind false "self", .bind false "buffer"] := rfl
  simp
  rw [callFn, hT, hp]
  simp [at_bind, at_catchRet, scope_none, at_scope, deref_loc', hR]
  rw [hl]
  simp [← hL (.con "IteratorDataSource" [.other (y (iterRead (mem.length - m) s.inner).2)])
          (.vec (mem.take m ++ overlay (mem.drop m) ((iterRead (mem.length - m) s.inner).1.map some)) cap extra allocs), at_bind]
  rfl

/-! ### Called from outside -/

omit [Iter J X] in
theorem runWith_pure {W : World σ X Y} {f : Fn} {vs st : List (Val X Y)} {v : Val X Y} {st' : List (Val X Y)}
    (h : at_ (callFn W f vs) st = pure (.ok v, st')) : runWith W f vs st = pure (v, st') :=
  runWith_eq (x := pure ()) (v := fun _ => v) (st' := fun _ => st') h

omit [Iter J X] in
theorem ReadDataSource_new (v : Val X Y) :
    callFn W Text.ReadDataSource_new [v] = pure (.con "ReadDataSource" [v]) := by
  rw [callFn]
  simp [Text.ReadDataSource_new, scope_none]

omit [Iter J X] in
theorem ReadDataSource_into_inner (y : Y) :
    callFn W Text.ReadDataSource_into_inner [.con "ReadDataSource" [.other y]] = pure (.other y) := by
  rw [callFn]
  simp [Text.ReadDataSource_into_inner, scope_none]

omit [Iter J X] in
theorem IteratorDataSource_new (v : Val X Y) :
    callFn W Text.IteratorDataSource_new [v] = pure (.con "IteratorDataSource" [v]) := by
  rw [callFn]
  simp [Text.IteratorDataSource_new, scope_none]

omit [Iter J X] in
theorem IteratorDataSource_into_inner (y : Y) :
    callFn W Text.IteratorDataSource_into_inner [.con "IteratorDataSource" [.other y]] = pure (.other y) := by
  rw [callFn]
  simp [Text.IteratorDataSource_into_inner, scope_none]

theorem Reads.reader_call {R : Type} {W : World σ UInt8 Y} [DataSource R UInt8] (y : R → Y)
    (h : ∀ s k, W.read (y s) k = ((DataSource.read s k).1, y (DataSource.read s k).2))
    (s : ReadDataSource R) (mem : List (Option UInt8)) (cap : Nat) (extra : Nat → Nat) (allocs m : Nat)
    (hl : mem.length ≤ usizeMax) (hm : m ≤ mem.length) :
    at_ (callFn W Text.ReadDataSource_read [.loc 0 [], .con "SliceMut" [.loc 1 [], .nat m, .nat mem.length]])
        [.con "ReadDataSource" [.other (y s.inner)], .vec mem cap extra allocs]
      = (pure (.ok (ofIo (DataSource.read s (mem.length - m)).1.result),
          [.con "ReadDataSource" [.other (y (DataSource.read s (mem.length - m)).2.inner)],
            .vec (mem.take m ++ overlay (mem.drop m) (DataSource.read s (mem.length - m)).1.writes) cap extra allocs])) := by
  have := Reads.reader y h 1 0 [] [] (fun s b => [s, b]) s mem cap extra allocs m (fun s => Ref.cell [s] [])
    (fun b => Ref.cell [] [b]) hl hm
  simpa using this

theorem Reads.iter_call (y : J → Y) (h : ∀ j, W.next (y j) = ((Iter.next j).1, y (Iter.next j).2))
    (s : IteratorDataSource J) (mem : List (Option X)) (cap : Nat) (extra : Nat → Nat) (allocs m : Nat)
    (hl : mem.length ≤ usizeMax) (hm : m ≤ mem.length) :
    at_ (callFn W Text.IteratorDataSource_read [.loc 0 [], .con "SliceMut" [.loc 1 [], .nat m, .nat mem.length]])
        [.con "IteratorDataSource" [.other (y s.inner)], .vec mem cap extra allocs]
      = (pure (.ok (ofIo (DataSource.read s (mem.length - m)).1.result),
          [.con "IteratorDataSource" [.other (y (DataSource.read s (mem.length - m)).2.inner)],
            .vec (mem.take m ++ overlay (mem.drop m) (DataSource.read s (mem.length - m)).1.writes) cap extra allocs])) := by
  have := Reads.iter W y h 1 0 [] [] (fun s b => [s, b]) s mem cap extra allocs m (fun s => Ref.cell [s] [])
    (fun b => Ref.cell [] [b]) hl hm
  simpa using this

/-! ### deref_mut -/

omit [Iter J X] in
theorem Fixed_deref_mut {a : Nat} {p : List String} {F : Val X Y → List (Val X Y)} (hF : Ref a p F) (cap : Nat)
    (extra : Nat → Nat) (allocs : Nat) (b : FixedSizeBuffer X) :
    at_ (callFn W Text.FixedSizeBuffer_deref_mut [.loc a p]) (F (ofFixed cap extra allocs b))
      = (do
        M.lift (assert (b.used ≤ b.populated ∧ b.populated ≤ b.buffer.length))
        pure (.ok (.con "SliceMut" [.loc a (p ++ ["buffer"]), .nat b.used, .nat b.populated]),
          F (ofFixed cap extra allocs b))) := by
  rw [callFn]
  by_cases h1 : b.used ≤ b.populated
  · by_cases h2 : b.populated ≤ b.buffer.length
    · simp [Text.FixedSizeBuffer_deref_mut, ofFixed, scope_none, at_bind, at_catchRet, deref_loc', hF.read, hF.read_field, h1, h2, assert]
    · simp [Text.FixedSizeBuffer_deref_mut, ofFixed, scope_none, at_bind, at_catchRet, deref_loc', hF.read, hF.read_field, h1, h2, assert]
  · simp [Text.FixedSizeBuffer_deref_mut, ofFixed, scope_none, at_bind, at_catchRet, deref_loc', hF.read, hF.read_field, h1, assert]

omit [Iter J X] in
theorem Growing_deref_mut {a : Nat} {p : List String} {F : Val X Y → List (Val X Y)} (hF : Ref a p F) (b : GrowingBuffer X) :
    at_ (callFn W Text.GrowingBuffer_deref_mut [.loc a p]) (F (ofGrowing b))
      = (do
        M.lift (assert (b.used ≤ b.populated ∧ b.populated ≤ b.buffer.length))
        pure (.ok (.con "SliceMut" [.loc a (p ++ ["buffer"]), .nat b.used, .nat b.populated]), F (ofGrowing b))) := by
  rw [callFn]
  by_cases h1 : b.used ≤ b.populated
  · by_cases h2 : b.populated ≤ b.buffer.length
    · simp [Text.GrowingBuffer_deref_mut, ofGrowing, scope_none, at_bind, at_catchRet, deref_loc', hF.read, hF.read_field, h1, h2, assert]
    · simp [Text.GrowingBuffer_deref_mut, ofGrowing, scope_none, at_bind, at_catchRet, deref_loc', hF.read, hF.read_field, h1, h2, assert]
  · simp [Text.GrowingBuffer_deref_mut, ofGrowing, scope_none, at_bind, at_catchRet, deref_loc', hF.read, hF.read_field, h1, assert]

end Chomp.Rust
