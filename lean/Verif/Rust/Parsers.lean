import Verif.Rust.Lemmas
import Verif.Model.Clone

/-
The texts of the functions of /repo/src/parsers.rs do what their models say.
-/

namespace Chomp.Rust

variable {σ X Y : Type}

variable [Build] (W : World σ X Y)

attribute [local simp] apply eval evals evalArms callStd callMethod_eq receiver matchPats matchPat scope find Val.field
  index constant binop stdByMut stdCall optV indexSlice ofMode ofOption

attribute [-simp] bind_pure_comp

/-- `f` behaves like the predicate `g`. -/
def IsPred (f : Val X Y) (g : X → M σ Bool) : Prop :=
  ∀ x, apply W f [.item x] = toR (do let b ← g x; pure (.bool b))

theorem any (i : Input X) :
    callFn W Text.any [ofInput i] = toR (do let r ← Parsers.any i; pure (ofResult .item ofError r)) := by
  rw [callFn]
  obtain ⟨m, b⟩ := i
  cases b <;> simp [Text.any, Parsers.any, ofResult, Input.incomplete, sliceFrom, Input.ret]

theorem satisfy (i : Input X) (f : Val X Y) (g : X → M σ Bool) (h : IsPred W f g) :
    callFn W Text.satisfy [ofInput i, f]
      = toR (do let r ← Closures.satisfy W.verbose g i; pure (ofResult .item ofError r)) := by
  rw [callFn]
  obtain ⟨m, b⟩ := i
  cases b with
  | nil => simp [Text.satisfy, Closures.satisfy, ofResult, Input.incomplete]
  | cons c b =>
    simp [Text.satisfy, Closures.satisfy, ofResult, sliceFrom, Input.ret, h c]
    refine toR_congr fun c => ?_
    cases c <;> simp [Input.err]


theorem satisfy_with (i : Input X) (f p : Val X Y) (t : T → Y) (g : X → M σ T) (q : T → M σ Bool)
    (cloneT : T → M σ T)
    (hf : ∀ x, apply W f [.item x] = toR (do let a ← g x; pure (.other (t a))))
    (hp : ∀ a, apply W p [.other (t a)] = toR (do let b ← q a; pure (.bool b)))
    (hc : ∀ a, W.cloneOther (t a) = do let b ← cloneT a; pure (t b)) :
    callFn W Text.satisfy_with [ofInput i, f, p]
      = toR (do
        let r ← Cloned.satisfyWith W.clone cloneT W.verbose g q i
        pure (ofResult (fun a => .other (t a)) ofError r)) := by
  rw [callFn]
  obtain ⟨m, b⟩ := i
  cases b with
  | nil => simp [Text.satisfy_with, Cloned.satisfyWith, Cloned.first, ofResult, Input.incomplete]
  | cons c b =>
    simp [Text.satisfy_with, Cloned.satisfyWith, Cloned.first, ofResult, sliceFrom, Input.ret, hf, hp, hc]
    refine toR_congr fun c => toR_congr fun d => toR_congr fun e => toR_congr fun x => ?_
    cases x <;> simp [Input.err]

theorem token (i : Input X) (x : X) :
    callFn W Text.token [ofInput i, .item x]
      = toR (do let r ← Closures.token W.eq W.verbose x i; pure (ofResult .item ofError r)) := by
  rw [callFn]
  obtain ⟨m, b⟩ := i
  cases b with
  | nil => simp [Text.token, Closures.token, ofResult, Input.incomplete]
  | cons c b =>
    simp [Text.token, Closures.token, ofResult, sliceFrom, Input.ret]
    refine toR_congr fun c => ?_
    cases c <;> simp [Input.err]

theorem not_token (i : Input X) (x : X) :
    callFn W Text.not_token [ofInput i, .item x]
      = toR (do let r ← Closures.notToken W.ne W.verbose x i; pure (ofResult .item ofError r)) := by
  rw [callFn]
  obtain ⟨m, b⟩ := i
  cases b with
  | nil => simp [Text.not_token, Closures.notToken, ofResult, Input.incomplete]
  | cons c b =>
    simp [Text.not_token, Closures.notToken, ofResult, sliceFrom, Input.ret]
    refine toR_congr fun c => ?_
    cases c <;> simp [Input.err]

theorem peek (i : Input X) :
    callFn W Text.peek [ofInput i]
      = toR (do let r ← Cloned.peek W.clone i; pure (ofResult (ofOption .item) ofError r)) := by
  rw [callFn]
  obtain ⟨m, b⟩ := i
  cases b <;> simp [Text.peek, Cloned.peek, Cloned.first, ofResult, Input.ret]

theorem peek_next (i : Input X) :
    callFn W Text.peek_next [ofInput i]
      = toR (do let r ← Cloned.peekNext W.clone i; pure (ofResult .item ofError r)) := by
  rw [callFn]
  obtain ⟨m, b⟩ := i
  cases b <;> simp [Text.peek_next, Cloned.peekNext, Cloned.first, ofResult, Input.ret, Input.incomplete]

theorem take (i : Input X) (n : Nat) :
    callFn W Text.take [ofInput i, .nat n]
      = toR (do let r ← Parsers.take n i; pure (ofResult .slice ofError r)) := by
  rw [callFn]
  obtain ⟨m, b⟩ := i
  by_cases h : n ≤ b.length <;>
    simp [Text.take, Parsers.take, ofResult, Input.ret, Input.incomplete, sliceFrom, sliceTo, h]

/-- `Iterator::position` -/
theorem position_eq (f : Val X Y) (g : X → M σ Bool) (h : IsPred W f g) (cloned : Bool) (b : List X) (n : Nat) :
    position W f cloned b n = toR (do
      let r ← if cloned then Cloned.position W.clone g b else Closures.position g b
      pure (ofOption (fun k => .nat (n + k)) r)) := by
  induction b generalizing n with
  | nil => cases cloned <;> simp [position, Cloned.position, Closures.position]
  | cons c b ih =>
    rw [position]
    cases cloned
    · simp [Closures.position, h c]
      refine toR_congr fun a => ?_
      cases a
      · simp [ih]
        refine toR_congr fun a => ?_
        cases a <;> simp [Nat.add_assoc, Nat.add_comm 1]
      · simp
    · simp [Cloned.position]
      refine toR_congr fun c => ?_
      simp [h c]
      refine toR_congr fun a => ?_
      cases a
      · simp [ih]
        refine toR_congr fun a => ?_
        cases a <;> simp [Nat.add_assoc, Nat.add_comm 1]
      · simp

theorem take_while (i : Input X) (f : Val X Y) (g : X → M σ Bool) (h : IsPred W f g) :
    callFn W Text.take_while [ofInput i, f]
      = toR (do let r ← Closures.takeWhile g i; pure (ofResult .slice ofError r)) := by
  rw [callFn]
  simp [Text.take_while]
  rw [position_eq W _ (fun c => do let a ← g c; pure (a == false)) (by intro x; simp [h x])]
  simp [Closures.takeWhile]
  refine toR_congr fun a => ?_
  cases a with
  | none => cases h : i.isLastSlice <;> simp [ofResult, Input.ret, Input.incomplete, sliceTo, h]
  | some n =>
    by_cases h : n ≤ i.buf.length <;> simp [ofResult, Input.ret, sliceTo, sliceFrom, h]

theorem take_while1 (i : Input X) (f : Val X Y) (g : X → M σ Bool) (h : IsPred W f g) :
    callFn W Text.take_while1 [ofInput i, f]
      = toR (do let r ← Closures.takeWhile1 W.verbose g i; pure (ofResult .slice ofError r)) := by
  rw [callFn]
  simp [Text.take_while1]
  rw [position_eq W _ (fun c => do let a ← g c; pure (a == false)) (by intro x; simp [h x])]
  simp [Closures.takeWhile1]
  refine toR_congr fun a => ?_
  match a with
  | none =>
    obtain ⟨m, b⟩ := i
    cases b <;> cases m <;> simp [ofResult, Input.ret, Input.incomplete, sliceTo, Input.isLastSlice]
  | some 0 => simp [ofResult, Input.err]
  | some (n + 1) =>
    by_cases h : n + 1 ≤ i.buf.length <;> simp [ofResult, Input.ret, sliceTo, sliceFrom, h]

theorem take_till (i : Input X) (f : Val X Y) (g : X → M σ Bool) (h : IsPred W f g) :
    callFn W Text.take_till [ofInput i, f]
      = toR (do let r ← Cloned.takeTill W.clone g i; pure (ofResult .slice ofError r)) := by
  rw [callFn]
  simp [Text.take_till]
  rw [position_eq W _ g h]
  simp [Cloned.takeTill]
  refine toR_congr fun a => ?_
  cases a with
  | none => simp [ofResult, Input.incomplete]
  | some n =>
    by_cases h : n ≤ i.buf.length <;> simp [ofResult, Input.ret, sliceTo, sliceFrom, h]

theorem take_remainder (i : Input X) :
    callFn W Text.take_remainder [ofInput i]
      = toR (do let r ← Parsers.takeRemainder i; pure (ofResult .slice ofError r)) := by
  rw [callFn]
  simp [Text.take_remainder, Parsers.takeRemainder, sliceTo, ofResult, Input.ret]

theorem eof (i : Input X) :
    callFn W Text.eof [ofInput i] = toR (do let r ← Parsers.eof W.verbose i; pure (ofResult ofUnit ofError r)) := by
  rw [callFn]
  obtain ⟨m, b⟩ := i
  cases b <;> cases m <;>
    simp [Text.eof, Parsers.eof, Input.isLastSlice, ofResult, Input.ret, Input.err, ofUnit]

/-- `err::string` -/
theorem err_string (i : Input X) (n : Nat) (s : List X) (t : T → Val X Y) :
    callFn W (if W.verbose then Text.err_string_verbose else Text.err_string_terse) [ofInput i, .nat n, .slice s]
      = toR (do let r ← Err.string (T := T) W.verbose i n s; pure (ofResult t ofError r)) := by
  rw [callFn]
  cases W.verbose
  · by_cases h : n ≤ i.buf.length <;>
      simp [Text.err_string_terse, Err.string, ofResult, Input.err, ofError, sliceFrom, h, Input.replace]
  · simp [Text.err_string_verbose, Err.string, ofResult, Input.err, ofError]

/-- the loop of `string` -/
theorem string_loop (i : Input X) (s d : List X) (env : Env X Y) (body : Expr) (k : Nat) (hk : k ≤ s.length)
    (hd : d.length = s.length)
    (hb : ∀ j x y, s[j]? = some x → d[j]? = some y →
      eval W (("j", .inl (.nat j)) :: env) body = do
        let b ← toR (W.ne x y)
        if b then do
          let v ← toR (do let r ← Err.string (T := List X) W.verbose i j s; pure (ofResult .slice ofError r))
          throw (.ret v)
        else pure .unit) :
    forRange W env (.bind false "j") body k s.length = (do
      let m ← toR (Closures.mismatch W.ne (s.drop k) (d.drop k))
      match m with
      | none => pure .unit
      | some j => do
        let v ← toR (do
          let r ← Err.string (T := List X) W.verbose i (k + j) s
          pure (ofResult .slice ofError r))
        throw (.ret v)) := by
  induction hn : s.length - k generalizing k with
  | zero =>
    have : k = s.length := by omega
    subst this
    rw [forRange, if_neg (by omega)]
    simp [Closures.mismatch]
  | succ n ih =>
    have h1 : k < s.length := by omega
    have h2 : k < d.length := by omega
    rw [forRange, if_pos h1]
    rw [List.drop_eq_getElem_cons h1, List.drop_eq_getElem_cons h2]
    simp [Closures.mismatch, hb k s[k] d[k] (by simp [h1]) (by simp [h2])]
    refine toR_congr fun b => ?_
    cases b
    · simp
      rw [ih (k + 1) h1 (by omega)]
      refine toR_congr fun m => ?_
      cases m <;> simp [Nat.add_assoc, Nat.add_comm 1]
    · simp

theorem string (i : Input X) (s : List X) :
    callFn W Text.string [ofInput i, .slice s]
      = toR (do let r ← Closures.string W.ne W.verbose s i; pure (ofResult .slice ofError r)) := by
  rw [callFn]
  by_cases h : s.length > i.buf.length
  · simp [Text.string, Closures.string, h, ofResult, Input.incomplete]
  · have h' : s.length ≤ i.buf.length := by omega
    simp [Text.string, Closures.string, h, h', ofResult, sliceTo]
    rw [string_loop W i s (i.buf.take s.length) _ _ 0 (Nat.zero_le _) (by simp; omega)]
    · simp
      refine toR_congr fun m => ?_
      cases m <;> simp [ofResult, sliceFrom, h', Input.ret]
    · intro j x y hx hy
      simp [hx, hy]
      refine toR_congr fun b => ?_
      cases b <;> simp
      rw [err_string W i j s (Val.slice : List X → _)]
      simp

end Chomp.Rust
