import Verif.Lemmas.Basic

/-
C19-C22: `option`, `or`, `look_ahead`, `matched_by` (src/combinators/mod.rs).
-/

namespace Chomp.Props

open Comb

theorem M_bind_of {x : M σ α} {f : α → M σ β} {w : σ} {r : Res (α × σ)} (h : x w = r) :
    (x >>= f) w = r >>= fun p => f p.1 p.2 := by
  rw [M.bind_apply, h]

/-! ### C19 option -/

theorem C19_option_ok (p : Parser σ I T E) (d : T) (i i' : Input I) (t : T) (w w' : σ)
    (h : p i w = .ok (.data i' t, w')) : option p d i w = .ok (.data i' t, w') := by
  unfold option; rw [M.bind_ok h]; rfl

/-- An error of `p` is swallowed: the default is returned at the untouched position. -/
theorem C19_option_err (p : Parser σ I T E) (d : T) (i : Input I) (b : List I) (e : E) (w w' : σ)
    (h : p i w = .ok (.error b e, w')) : option p d i w = .ok (.data i d, w') := by
  unfold option; rw [M.bind_ok h]; rfl

theorem C19_option_incomplete (p : Parser σ I T E) (d : T) (m : Mode) (b : List I) (n : Nat)
    (w w' : σ) (h : p ⟨m, b⟩ w = .ok (.incomplete n, w')) :
    option p d ⟨m, b⟩ w =
      .ok (if m = .endOfInput then .data ⟨m, b⟩ d else .incomplete n, w') := by
  unfold option; rw [M.bind_ok h]; cases m <;> rfl

/-- A crash of `p` is a crash of `option`. -/
theorem C19_option_crash (p : Parser σ I T E) (d : T) (i : Input I) (w : σ) :
    (p i w = .panic → option p d i w = .panic) ∧ (p i w = .ub → option p d i w = .ub) ∧
    (p i w = .div → option p d i w = .div) := by
  refine ⟨?_, ?_, ?_⟩ <;> intro h <;> unfold option <;> rw [M_bind_of h] <;> rfl

/-- `option` never errors. -/
theorem C19_option_never_errors (p : Parser σ I T E) (d : T) (i : Input I) (b : List I) (e : E)
    (w w' : σ) : option p d i w ≠ .ok (.error b e, w') := by
  obtain ⟨m, s⟩ := i
  cases h : p ⟨m, s⟩ w with
  | ok r =>
    obtain ⟨r, w1⟩ := r
    cases r with
    | data i' t => rw [C19_option_ok p d _ _ _ _ _ h]; simp
    | error b' e' => rw [C19_option_err p d _ _ _ _ _ h]; simp
    | incomplete n =>
      rw [C19_option_incomplete p d _ _ _ _ _ h]
      split <;> simp
  | panic => rw [(C19_option_crash p d _ w).1 h]; simp
  | ub => rw [(C19_option_crash p d _ w).2.1 h]; simp
  | div => rw [(C19_option_crash p d _ w).2.2 h]; simp

/-- `p` consumes an item before it errors; `option` gives it back. -/
example : option (Parsers.any.bind id (fun _ => Parser.err .generic)) 'z' ⟨.default, ['a', 'b']⟩ ()
    = .ok (.data ⟨.default, ['a', 'b']⟩ 'z', ()) :=
  C19_option_err _ _ _ ['b'] .generic () () rfl

/-! ### C20 or -/

/-- If `f` succeeds, `g` is not called. -/
theorem C20_or_ok (f g : Parser σ I T E) (i i' : Input I) (t : T) (w w' : σ)
    (h : f i w = .ok (.data i' t, w')) : or f g i w = .ok (.data i' t, w') := by
  unfold Comb.or; rw [M.bind_ok h]; rfl

/-- If `f` errors (wherever), the result is that of `g` on the original input. -/
theorem C20_or_err (f g : Parser σ I T E) (i : Input I) (b : List I) (e : E) (w w' : σ)
    (h : f i w = .ok (.error b e, w')) : or f g i w = g i w' := by
  unfold Comb.or; rw [M.bind_ok h]

theorem C20_or_incomplete (f g : Parser σ I T E) (m : Mode) (b : List I) (n : Nat) (w w' : σ)
    (h : f ⟨m, b⟩ w = .ok (.incomplete n, w')) :
    or f g ⟨m, b⟩ w = if m = .endOfInput then g ⟨m, b⟩ w' else .ok (.incomplete n, w') := by
  unfold Comb.or; rw [M.bind_ok h]; cases m <;> rfl

theorem C20_or_crash (f g : Parser σ I T E) (i : Input I) (w : σ) :
    (f i w = .panic → or f g i w = .panic) ∧ (f i w = .ub → or f g i w = .ub) ∧
    (f i w = .div → or f g i w = .div) := by
  refine ⟨?_, ?_, ?_⟩ <;> intro h <;> unfold Comb.or <;> rw [M_bind_of h] <;> rfl

/-- `or` is associative. -/
theorem C20_or_assoc (f g h : Parser σ I T E) : or (or f g) h = or f (or g h) := by
  funext i w
  obtain ⟨m, b⟩ := i
  cases hf : f ⟨m, b⟩ w with
  | ok r =>
    obtain ⟨r, w1⟩ := r
    cases r with
    | data i' t =>
      rw [C20_or_ok _ _ _ _ _ _ _ hf, C20_or_ok _ _ _ _ _ _ _ (C20_or_ok _ _ _ _ _ _ _ hf)]
    | error b' e' =>
      have h1 := C20_or_err f g _ _ _ _ _ hf
      rw [C20_or_err f _ _ _ _ _ _ hf]
      unfold Comb.or
      rw [M.bind_apply, M.bind_apply]
      change or f g _ _ >>= _ = _
      rw [h1]; rfl
    | incomplete n =>
      cases m with
      | default =>
        have h1 := C20_or_incomplete f g _ _ _ _ _ hf
        rw [C20_or_incomplete f _ _ _ _ _ _ hf]
        simp only [reduceCtorEq, if_false] at h1 ⊢
        rw [C20_or_incomplete _ _ _ _ _ _ _ h1]
        simp
      | endOfInput =>
        have h1 := C20_or_incomplete f g _ _ _ _ _ hf
        rw [C20_or_incomplete f _ _ _ _ _ _ hf]
        simp only [if_true] at h1 ⊢
        unfold Comb.or
        rw [M.bind_apply, M.bind_apply]
        change or f g _ _ >>= _ = _
        rw [h1]; rfl
  | panic =>
    rw [(C20_or_crash f _ _ w).1 hf, (C20_or_crash _ h _ w).1 ((C20_or_crash f _ _ w).1 hf)]
  | ub =>
    rw [(C20_or_crash f _ _ w).2.1 hf, (C20_or_crash _ h _ w).2.1 ((C20_or_crash f _ _ w).2.1 hf)]
  | div =>
    rw [(C20_or_crash f _ _ w).2.2 hf, (C20_or_crash _ h _ w).2.2 ((C20_or_crash f _ _ w).2.2 hf)]

/-- A first alternative which always errs is neutral. -/
theorem C20_or_err_neutral (e : E) (g : Parser σ I T E) : or (Parser.err e) g = g := by
  funext i w
  exact C20_or_err _ g i i.buf e w w rfl

/-- A first alternative which always succeeds makes the second one unreachable. -/
theorem C20_or_ret (t : T) (g : Parser σ I T E) : or (Parser.ret t) g = Parser.ret t := by
  funext i w
  exact C20_or_ok _ g i i t w w rfl

/-- `option(p, d)` is `or(p, |i| i.ret(d))`. -/
theorem C20_option_is_or (p : Parser σ I T E) (d : T) : option p d = or p (Parser.ret d) := by
  funext i w
  unfold option Comb.or
  rfl

/-- The first alternative consumes before it fails, and counts its calls; the second one starts from
the beginning. -/
example : or (Parsers.any.bind id (fun _ => Parser.effect (modify (· + 1)) (fun _ => Parser.err .generic)))
      Parsers.any ⟨.default, ['a', 'b']⟩ 3
    = .ok (.data ⟨.default, ['b']⟩ 'a', 4) := by
  rw [C20_or_err _ _ _ ['b'] .generic 3 4 rfl]; rfl

/-! ### C21 look_ahead -/

theorem C21_look_ahead_ok (p : Parser σ I T E) (i i' : Input I) (t : T) (w w' : σ)
    (h : p i w = .ok (.data i' t, w')) : lookAhead p i w = .ok (.data i t, w') := by
  unfold lookAhead; rw [M.bind_ok h]; rfl

theorem C21_look_ahead_err (p : Parser σ I T E) (i : Input I) (b : List I) (e : E) (w w' : σ)
    (h : p i w = .ok (.error b e, w')) : lookAhead p i w = .ok (.error b e, w') := by
  unfold lookAhead; rw [M.bind_ok h]; rfl

theorem C21_look_ahead_incomplete (p : Parser σ I T E) (i : Input I) (n : Nat) (w w' : σ)
    (h : p i w = .ok (.incomplete n, w')) : lookAhead p i w = .ok (.incomplete n, w') := by
  unfold lookAhead; rw [M.bind_ok h]; rfl

/-- Whatever `p` does, a success of `look_ahead(p)` leaves the input untouched. -/
theorem C21_look_ahead_consumes_nothing (p : Parser σ I T E) (i i' : Input I) (t : T) (w w' : σ) :
    lookAhead p i w = .ok (.data i' t, w') ↔ i' = i ∧ ∃ i'', p i w = .ok (.data i'' t, w') := by
  cases hp : p i w with
  | ok r =>
    obtain ⟨r, w1⟩ := r
    cases r with
    | data j t1 =>
      rw [C21_look_ahead_ok p _ _ _ _ _ hp]
      simp; constructor
      · rintro ⟨⟨rfl, rfl⟩, rfl⟩; simp
      · rintro ⟨rfl, rfl, rfl⟩; simp
    | error b e => rw [C21_look_ahead_err p _ _ _ _ _ hp]; simp
    | incomplete n => rw [C21_look_ahead_incomplete p _ _ _ _ hp]; simp
  | _ => unfold lookAhead; rw [M_bind_of hp]; simp

/-- Looking ahead is idempotent. -/
theorem C21_look_ahead_idem (p : Parser σ I T E) : lookAhead (lookAhead p) = lookAhead p := by
  funext i w
  cases hp : p i w with
  | ok r =>
    obtain ⟨r, w1⟩ := r
    cases r with
    | data j t1 =>
      have h1 := C21_look_ahead_ok p _ _ _ _ _ hp
      rw [C21_look_ahead_ok _ _ _ _ _ _ h1, h1]
    | error b e =>
      have h1 := C21_look_ahead_err p _ _ _ _ _ hp
      rw [C21_look_ahead_err _ _ _ _ _ _ h1, h1]
    | incomplete n =>
      have h1 := C21_look_ahead_incomplete p _ _ _ _ hp
      rw [C21_look_ahead_incomplete _ _ _ _ _ h1, h1]
  | panic =>
    have h1 : lookAhead p i w = .panic := by unfold lookAhead; rw [M_bind_of hp]; rfl
    have h2 : ∀ q : Parser σ I T E, q i w = .panic → lookAhead q i w = .panic := by
      intro q h; unfold lookAhead; rw [M_bind_of h]; rfl
    rw [h2 _ h1, h1]
  | ub =>
    have h2 : ∀ q : Parser σ I T E, q i w = .ub → lookAhead q i w = .ub := by
      intro q h; unfold lookAhead; rw [M_bind_of h]; rfl
    rw [h2 _ (h2 _ hp), h2 _ hp]
  | div =>
    have h2 : ∀ q : Parser σ I T E, q i w = .div → lookAhead q i w = .div := by
      intro q h; unfold lookAhead; rw [M_bind_of h]; rfl
    rw [h2 _ (h2 _ hp), h2 _ hp]

example : lookAhead (Parsers.take 2) ⟨.default, ['a', 'b', 'c']⟩ () =
    .ok (.data ⟨.default, ['a', 'b', 'c']⟩ ['a', 'b'], ()) :=
  C21_look_ahead_ok _ _ ⟨.default, ['c']⟩ _ _ _ (Parsers.take_eq _ _ _)

/-! ### C22 matched_by -/

/-- If the remainder is a suffix of the slice (which it is for every parser made from this library,
C05), then `matched_by` returns the consumed part. -/
theorem C22_matched_by_ok (p : Parser σ I T E) (m m' : Mode) (x y : List I) (t : T) (w w' : σ)
    (h : p ⟨m, x ++ y⟩ w = .ok (.data ⟨m', y⟩ t, w')) :
    matchedBy p ⟨m, x ++ y⟩ w = .ok (.data ⟨m', y⟩ (x, t), w') := by
  unfold matchedBy
  dsimp only
  rw [M.bind_ok h]
  dsimp only
  rw [usub_ok (by simp), M.bind_ok (M.lift_ok _ w'), M.bind_ok (sliceTo_ok (by simp) w')]
  simp [Input.ret]

theorem C22_matched_by_err (p : Parser σ I T E) (i : Input I) (b : List I) (e : E) (w w' : σ)
    (h : p i w = .ok (.error b e, w')) : matchedBy p i w = .ok (.error b e, w') := by
  unfold matchedBy; rw [M.bind_ok h]; rfl

theorem C22_matched_by_incomplete (p : Parser σ I T E) (i : Input I) (n : Nat) (w w' : σ)
    (h : p i w = .ok (.incomplete n, w')) : matchedBy p i w = .ok (.incomplete n, w') := by
  unfold matchedBy; rw [M.bind_ok h]; rfl

/-- The length arithmetic underflows (a panic) for a parser which makes the slice longer; such a
parser cannot be written with this library's safe interface. -/
theorem C22_matched_by_longer (p : Parser σ I T E) (i i' : Input I) (t : T) (w w' : σ)
    (h : p i w = .ok (.data i' t, w')) (hl : i.buf.length < i'.buf.length) :
    matchedBy p i w = .panic := by
  unfold matchedBy; rw [M.bind_ok h]; dsimp only
  have : usub i.buf.length i'.buf.length = .panic := by simp [usub]; omega
  rw [this, M_bind_of (M.lift_panic w')]; rfl

example : matchedBy (Parsers.takeWhile (· == 'a')) ⟨.default, ['a', 'a', 'b']⟩ () =
    .ok (.data ⟨.default, ['b']⟩ (['a', 'a'], ['a', 'a']), ()) :=
  C22_matched_by_ok _ _ _ ['a', 'a'] ['b'] _ _ _ (Parsers.takeWhile_eq _ _ _)

end Chomp.Props
