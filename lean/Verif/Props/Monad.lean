import Verif.Lemmas.Basic

/-
C01-C04, C10: the parser monad (src/parse_result.rs, src/input.rs, src/parse.rs).

All statements are equalities of computations `M σ _`, so they cover the captured state, panics and
non-termination of the closures involved.
-/

namespace Chomp.Props

/-! ### C01 left identity -/

/-- `i.ret(a).bind(f)` is `f(i, a)`. -/
theorem C01_left_identity (conv : E → V) (i : Input I) (a : T)
    (f : Input I → T → M σ (ParseResult I U V)) :
    (i.ret a : ParseResult I T E).bind conv f = f i a := by
  simp [Input.ret]

/-- The same for `then`. -/
theorem C01_left_identity_then (conv : E → V) (i : Input I) (a : T)
    (f : Input I → M σ (ParseResult I U V)) :
    (i.ret a : ParseResult I T E).andThen conv f = f i := by
  simp [Input.ret, ParseResult.andThen]

/-- An effectful, panicking continuation is covered: it counts its calls, and panics on 7. -/
example (a : Nat) : (Input.ret ⟨.default, [1, 2]⟩ a : ParseResult Nat Nat String).bind id
      (fun i (x : Nat) => do
        modify (· + 1)
        if x = 7 then M.panic else pure (i.ret (x + 1)))
      (5 : Nat)
    = if a = 7 then .panic else .ok (.data ⟨.default, [1, 2]⟩ (a + 1), 6) := by
  rw [C01_left_identity]
  by_cases h : a = 7 <;> simp [h] <;> rfl

/-! ### C02 right identity -/

/-- `m.bind(|i, x| i.ret(x))` is `m`. -/
theorem C02_right_identity (m : ParseResult I T E) :
    m.bind id (fun i x => (pure (i.ret x) : M σ _)) = pure m := by
  cases m <;> simp [Input.ret]

/-- With a conversion of the error type, only the error value changes. -/
theorem C02_right_identity_conv (conv : E → V) (m : ParseResult I T E) :
    m.bind conv (fun i x => (pure (i.ret x) : M σ _)) = pure (match m with
      | .data i t => .data i t
      | .error b e => .error b (conv e)
      | .incomplete n => .incomplete n) := by
  cases m <;> simp [Input.ret]

example : (ParseResult.error [1, 2] "e" : ParseResult Nat Nat String).bind String.length
      (fun i x => (pure (i.ret x) : M Unit _)) () = .ok (.error [1, 2] 1, ()) := by
  rw [C02_right_identity_conv]; rfl

/-! ### C03 associativity -/

/-- `m.bind(f).bind(g)` is `m.bind(|i, x| f(i, x).bind(g))` if converting an error from `E1` to `E3`
directly is the same as going through `E2`. -/
theorem C03_associativity (c12 : E1 → E2) (c23 : E2 → E3) (c13 : E1 → E3)
    (coh : ∀ e, c13 e = c23 (c12 e))
    (m : ParseResult I T E1) (f : Input I → T → M σ (ParseResult I U E2))
    (g : Input I → U → M σ (ParseResult I W E3)) :
    (m.bind c12 f >>= fun r => r.bind c23 g) =
      m.bind c13 (fun i x => f i x >>= fun r => r.bind c23 g) := by
  cases m <;> simp [coh]

/-- In particular when the error type does not change. -/
theorem C03_associativity_same (m : ParseResult I T E) (f : Input I → T → M σ (ParseResult I U E))
    (g : Input I → U → M σ (ParseResult I W E)) :
    (m.bind id f >>= fun r => r.bind id g) =
      m.bind id (fun i x => f i x >>= fun r => r.bind id g) :=
  C03_associativity id id id (fun _ => rfl) m f g

/-- The coherence hypothesis is necessary: if the law holds for all results and continuations (of
any one choice of value types), the conversions are coherent. -/
theorem C03_coherence_needed (c12 : E1 → E2) (c23 : E2 → E3) (c13 : E1 → E3)
    (law : ∀ (m : ParseResult I T E1) (f : Input I → T → M Unit (ParseResult I U E2))
      (g : Input I → U → M Unit (ParseResult I W E3)),
      (m.bind c12 f >>= fun r => r.bind c23 g) =
        m.bind c13 (fun i x => f i x >>= fun r => r.bind c23 g)) :
    ∀ e, c13 e = c23 (c12 e) := by
  intro e
  have h := congrFun (law (.error [] e) (fun _ _ => M.panic) (fun _ _ => M.panic)) ()
  simp at h
  exact h.symm

/-- The laws at the level of parsers (functions from input). -/
theorem C03_parser_associativity (c12 : E1 → E2) (c23 : E2 → E3) (c13 : E1 → E3)
    (coh : ∀ e, c13 e = c23 (c12 e))
    (p : Parser σ I T E1) (f : T → Parser σ I U E2) (g : U → Parser σ I W E3) :
    (p.bind c12 f).bind c23 g = p.bind c13 (fun x => (f x).bind c23 g) := by
  funext i
  simp only [Parser.bind, bind_assoc]
  congr 1
  funext r
  exact C03_associativity c12 c23 c13 coh r _ _

/-- Coherent conversions between three different types exist. -/
example : ∀ e : Nat, (fun e : Nat => (e, 0)) e = (fun s : Nat × Unit => (s.1, 0)) ((fun e => (e, ())) e) :=
  fun _ => rfl

/-! ### C04 failure short-circuits -/

/-- A failed result never runs the continuation: the captured state `w` is untouched, the position
is kept and the error is converted once. -/
theorem C04_bind_error (conv : E → V) (b : List I) (e : E)
    (f : Input I → T → M σ (ParseResult I U V)) (w : σ) :
    (ParseResult.error b e).bind conv f w = .ok (.error b (conv e), w) := rfl

/-- An incomplete result never runs the continuation. -/
theorem C04_bind_incomplete (conv : E → V) (n : Nat)
    (f : Input I → T → M σ (ParseResult I U V)) (w : σ) :
    (ParseResult.incomplete n : ParseResult I T E).bind conv f w = .ok (.incomplete n, w) := rfl

theorem C04_then_error (conv : E → V) (b : List I) (e : E)
    (f : Input I → M σ (ParseResult I U V)) (w : σ) :
    (ParseResult.error b e : ParseResult I T E).andThen conv f w = .ok (.error b (conv e), w) := rfl

theorem C04_then_incomplete (conv : E → V) (n : Nat)
    (f : Input I → M σ (ParseResult I U V)) (w : σ) :
    (ParseResult.incomplete n : ParseResult I T E).andThen conv f w = .ok (.incomplete n, w) := rfl

/-- `then` is `bind` ignoring the value (documented at src/parse_result.rs:157-161). -/
theorem C04_then_is_bind (conv : E → V) (m : ParseResult I T E)
    (f : Input I → M σ (ParseResult I U V)) :
    m.andThen conv f = m.bind conv (fun i _ => f i) := rfl

/-- `map` touches only the value: it is called once on success (with the effects of the closure) and
never otherwise. -/
theorem C04_map (m : ParseResult I T E) (f : T → M σ U) (w : σ) :
    m.map f w = match m with
      | .data i t => (f t w >>= fun r => .ok (.data i r.1, r.2))
      | .error b e => .ok (.error b e, w)
      | .incomplete n => .ok (.incomplete n, w) := by
  cases m <;> rfl

/-- `map_err` touches only the error. -/
theorem C04_map_err (m : ParseResult I T E) (f : E → M σ V) (w : σ) :
    m.mapErr f w = match m with
      | .data i t => .ok (.data i t, w)
      | .error b e => (f e w >>= fun r => .ok (.error b r.1, r.2))
      | .incomplete n => .ok (.incomplete n, w) := by
  cases m <;> rfl

/-- `map` preserves identity. -/
theorem C04_map_id (m : ParseResult I T E) : m.map (fun t => (pure t : M σ T)) = pure m := by
  cases m <;> simp [ParseResult.map]

/-- `map` preserves composition, effects included. -/
theorem C04_map_comp (m : ParseResult I T E) (f : T → M σ U) (g : U → M σ W) :
    (m.map f >>= fun r => r.map g) = m.map (fun t => f t >>= g) := by
  cases m <;> simp [ParseResult.map]

/-- `map` is definable by `bind` and `ret`. -/
theorem C04_map_is_bind (m : ParseResult I T E) (f : T → U) :
    m.map (fun t => (pure (f t) : M σ U)) = m.bind id (fun i t => pure (i.ret (f t))) := by
  cases m <;> simp [ParseResult.map, Input.ret]

/-- `inspect` never changes the result; it calls its closure exactly once on success, and never
otherwise. -/
theorem C04_inspect (m : ParseResult I T E) (f : T → M σ Unit) (w : σ) :
    m.inspect f w = match m with
      | .data _ t => (f t w >>= fun r => .ok (m, r.2))
      | _ => .ok (m, w) := by
  cases m <;> rfl

/-- Counting the calls of `inspect`'s closure. -/
theorem C04_inspect_counts (m : ParseResult I T E) (n : Nat) :
    m.inspect (fun _ => (modify (· + 1) : M Nat Unit)) n =
      .ok (m, match m with | .data _ _ => n + 1 | _ => n) := by
  cases m <;> rfl

/-- `from_result` keeps the position: success does not consume, and an error is reported at the
current position. -/
theorem C04_from_result (i : Input I) (r : Except E T) :
    i.fromResult r = match r with
      | .ok t => i.ret t
      | .error e => i.err e := by
  cases r <;> rfl

/-- `unwrap` and `expect` panic exactly on non-success, `unwrap_err` exactly on non-error. -/
theorem C04_unwrap (m : ParseResult I T E) (w : σ) :
    m.unwrap w = (match m with | .data _ t => .ok (t, w) | _ => .panic) ∧
    m.expect w = (match m with | .data _ t => .ok (t, w) | _ => .panic) ∧
    m.unwrapErr w = (match m with | .error _ e => .ok (e, w) | _ => .panic) := by
  cases m <;> exact ⟨rfl, rfl, rfl⟩

/-- A continuation which would panic and change the state is not run. -/
example : (ParseResult.error [2] "bad" : ParseResult Nat Nat String).bind String.length
    (fun _ _ => (M.panic : M Nat (ParseResult Nat Nat Nat))) 41 = .ok (.error [2] 3, 41) :=
  C04_bind_error _ _ _ _ _

/-! ### C10 parse_only -/

/-- `parse_only` runs the parser once, on the whole slice, marked as the last one. -/
theorem C10_parse_only (p : Parser σ I T E) (s : List I) (w : σ) :
    parseOnly p s w = (p ⟨.endOfInput, s⟩ w >>= fun r => .ok (match r.1 with
      | .data _ t => .ok t
      | .error b e => .error (.error b e)
      | .incomplete n => .error (.incomplete n), r.2)) := by
  unfold parseOnly
  rw [M.bind_apply]
  congr 1
  funext r
  obtain ⟨r, w'⟩ := r
  cases r <;> rfl

/-- It succeeds exactly if the parser succeeds; the remainder is discarded. -/
theorem C10_parse_only_ok (p : Parser σ I T E) (s : List I) (w w' : σ) (t : T) :
    parseOnly p s w = .ok (.ok t, w') ↔
      ∃ rest, p ⟨.endOfInput, s⟩ w = .ok (.data rest t, w') := by
  rw [C10_parse_only]
  cases h : p ⟨.endOfInput, s⟩ w with
  | ok r =>
    obtain ⟨r, w1⟩ := r
    cases r <;> simp
  | _ => simp

example : parseOnly (Parsers.take 2) [1, 2, 3] () = .ok (.ok [1, 2], ()) := by
  rw [C10_parse_only]; rfl

end Chomp.Props
