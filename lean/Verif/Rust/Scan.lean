import Verif.Rust.Parsers

/-
The texts of `scan` and `run_scanner`, /repo/src/parsers.rs:303-341, do what their models say.
-/

namespace Chomp.Rust

variable {σ X Y : Type}

attribute [local simp] apply eval evals callStd callMethod_eq receiver matchPats matchPat find Val.field
  index constant binop stdByMut stdCall optV indexSlice ofMode ofOption place

attribute [-simp] bind_pure_comp

/-- As `Closures.scanPosition`, with the value of the variable `state` afterwards. -/
def scanState (f : S → X → M σ (Option S)) : Option S → List X → M σ (Option Nat × Option S)
  | o, [] => pure (none, o)
  | none, _ :: _ => M.panic
  | some s, c :: cs => do
    let state ← f s c
    if state.isNone then pure (some 0, none)
    else do
      let r ← scanState f state cs
      pure (r.1.map (· + 1), r.2)

theorem scanState_eq (f : S → X → M σ (Option S)) (o : Option S) (b : List X) :
    Closures.scanPosition f o b = (do let r ← scanState f o b; pure r.1) := by
  induction b generalizing o with
  | nil => simp [Closures.scanPosition, scanState]
  | cons c b ih =>
    cases o with
    | none => rfl
    | some s =>
      simp only [Closures.scanPosition, scanState, bind_assoc]
      refine congrArg (f s c >>= ·) (funext fun o => ?_)
      cases o <;> simp [ih]

variable [Build] (W : World σ X Y)

theorem scan_position (clo fv : Val X Y) (t : S → Val X Y) (f : S → X → M σ (Option S)) (st : List (Val X Y))
    (h : ∀ o c, at_ (apply W clo [.item c]) (st ++ [fv, ofOption t o]) = (match o with
      | none => M.panic
      | some s => do
        let o ← f s c
        pure (.ok (.bool o.isNone), st ++ [fv, ofOption t o])))
    (o : Option S) (b : List X) (n : Nat) :
    at_ (position W clo false b n) (st ++ [fv, ofOption t o]) = (do
      let r ← scanState f o b
      pure (.ok (ofOption (fun k => .nat (n + k)) r.1), st ++ [fv, ofOption t r.2])) := by
  induction b generalizing o n with
  | nil => simp [position, scanState]
  | cons c b ih =>
    rw [position]
    simp [at_bind, -ofOption]
    rw [h]
    cases o with
    | none => rfl
    | some s =>
      simp [scanState, -ofOption]
      refine congrArg (f s c >>= ·) (funext fun o => ?_)
      cases o with
      | none => simp
      | some s =>
        simp [-ofOption]
        rw [ih]
        simp
        refine congrArg (scanState f (some s) b >>= ·) (funext fun r => ?_)
        obtain ⟨r, o⟩ := r
        cases r <;> simp [Nat.add_assoc, Nat.add_comm 1]

theorem scan (i : Input X) (fv : Val X Y) (t : S → Val X Y) (s : S) (f : S → X → M σ (Option S))
    (h : ∀ s c, apply W fv [t s, .item c] = toR (do let r ← f s c; pure (ofOption t r))) :
    callFn W Text.scan [ofInput i, t s, fv]
      = toR (do let r ← Closures.scan s f i; pure (ofResult .slice ofError r)) := by
  rw [callFn]
  refine ext_at fun st => ?_
  simp [Text.scan, scope_none, at_scope, at_bind, at_catchRet]
  rw [show (Val.con "Some" [t s] : Val X Y) = ofOption t (some s) from rfl, scan_position W _ fv t f]
  · simp only [bind_assoc, pure_bind, Closures.scan, scanState_eq]
    refine congrArg (scanState f (some s) i.buf >>= ·) (funext fun r => ?_)
    obtain ⟨r, o⟩ := r
    cases r with
    | none => simp [evalArms, ofResult, Input.incomplete]
    | some n =>
      by_cases hn : n ≤ i.buf.length
      · simp [evalArms, scope_none, ofResult, hn, sliceFrom, sliceTo, Input.ret]
      · simp [evalArms, scope_none, ofResult, hn, sliceFrom, sliceTo, Input.ret]
        rfl
  · intro o c
    cases o with
    | none =>
      simp [scope_none, at_bind, at_catchRet]
      rfl
    | some s =>
      rw [show ofOption t (some s) = .con "Some" [t s] from rfl]
      simp [scope_none, at_bind, at_catchRet, h, -ofOption]
      refine congrArg (f s c >>= ·) (funext fun r => ?_)
      cases r <;> simp

/-- the `position` call of `run_scanner` -/
theorem run_scanner_position (clo fv : Val X Y) (t : S → Val X Y) (f : S → X → M σ (Option S))
    (st : List (Val X Y))
    (h : ∀ s c, at_ (apply W clo [.item c]) (st ++ [fv, t s]) = (do
        let o ← f s c
        match o with
        | none => pure (.ok (.bool true), st ++ [fv, t s])
        | some s => pure (.ok (.bool false), st ++ [fv, t s])))
    (s : S) (b : List X) (n : Nat) :
    at_ (position W clo false b n) (st ++ [fv, t s]) = (do
      let r ← Closures.runScannerPosition f s b
      pure (.ok (ofOption (fun k => .nat (n + k)) r.1), st ++ [fv, t r.2])) := by
  induction b generalizing s n with
  | nil => simp [position, Closures.runScannerPosition]
  | cons c b ih =>
    rw [position]
    simp [at_bind, -ofOption]
    rw [h]
    simp [Closures.runScannerPosition, -ofOption]
    refine congrArg (f s c >>= ·) (funext fun o => ?_)
    cases o with
    | none => simp
    | some s =>
      simp [-ofOption]
      rw [ih]
      simp
      refine congrArg (Closures.runScannerPosition f s b >>= ·) (funext fun r => ?_)
      obtain ⟨r, o⟩ := r
      cases r <;> simp [Nat.add_assoc, Nat.add_comm 1]

theorem run_scanner (i : Input X) (fv : Val X Y) (t : S → Val X Y) (s : S) (f : S → X → M σ (Option S))
    (h : ∀ s c, apply W fv [t s, .item c] = toR (do let r ← f s c; pure (ofOption t r))) :
    callFn W Text.run_scanner [ofInput i, t s, fv]
      = toR (do
        let r ← Closures.runScanner s f i
        pure (ofResult (fun a => .tuple [.slice a.1, t a.2]) ofError r)) := by
  rw [callFn]
  refine ext_at fun st => ?_
  simp [Text.run_scanner, scope_none, at_scope, at_bind, at_catchRet]
  rw [run_scanner_position W _ fv t f]
  · simp only [bind_assoc, pure_bind, Closures.runScanner]
    refine congrArg (Closures.runScannerPosition f s i.buf >>= ·) (funext fun r => ?_)
    obtain ⟨r, o⟩ := r
    cases r with
    | none => simp [evalArms, ofResult, Input.incomplete]
    | some n =>
      by_cases hn : n ≤ i.buf.length
      · simp [evalArms, scope_none, at_bind, ofResult, hn, sliceFrom, sliceTo, Input.ret]
      · simp [evalArms, scope_none, ofResult, hn, sliceFrom, sliceTo, Input.ret]
        rfl
  · intro s c
    simp [scope_none, at_bind, at_catchRet, h, -ofOption]
    refine congrArg (f s c >>= ·) (funext fun r => ?_)
    cases r <;> simp [evalArms, scope_none, at_bind]

end Chomp.Rust
