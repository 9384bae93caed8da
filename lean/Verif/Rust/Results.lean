import Verif.Model.Convert
import Verif.Rust.Lemmas

/-
The texts of the functions of /repo/src/parse_result.rs and /repo/src/parse.rs, and of those of
/repo/src/combinators/mod.rs which do not repeat anything, do what their models say.
-/

namespace Chomp.Rust

variable {σ X Y : Type}

variable [Build] (W : World σ X Y)

attribute [local simp] apply eval evals evalArms callStd callMethod_eq receiver matchPats matchPat scope find Val.field
  index constant binop stdByMut stdCall optV indexSlice ofMode ofOption ofResult

attribute [-simp] bind_pure_comp

/-! ### `ParseResult` -/

@[simp] theorem into_inner (v : Val X Y) :
    callFn W Text.ParseResult_into_inner [.con "ParseResult" [v]] = pure v := by
  rw [callFn]
  simp [Text.ParseResult_into_inner]

theorem map_err (t : T → Val X Y) (e : E → Val X Y) (e' : V → Val X Y) (r : ParseResult X T E) (f : Val X Y)
    (g : E → M σ V) (h : ∀ a, apply W f [e a] = toR (do let b ← g a; pure (e' b))) :
    callFn W Text.ParseResult_map_err [ofResult t e r, f]
      = toR (do let q ← r.mapErr g; pure (ofResult t e' q)) := by
  rw [callFn]
  cases r <;> simp [Text.ParseResult_map_err, ParseResult.mapErr, h]

/-- With any implementation of `From`. -/
theorem bind_from (t : T → Val X Y) (e : E → Val X Y) (u : U → Val X Y) (e' : V → Val X Y) (r : ParseResult X T E)
    (f : Val X Y) (g : Input X → T → M σ (ParseResult X U V)) (conv : E → M σ V)
    (h : ∀ i a, apply W f [ofInput i, t a] = toR (do let r ← g i a; pure (ofResult u e' r)))
    (hc : ∀ a, stdCall W "<V as From<E>>::from" [e a] = toR (do let b ← conv a; pure (e' b))) :
    callFn W Text.ParseResult_bind [ofResult t e r, f]
      = toR (do let q ← Converted.bind conv r g; pure (ofResult u e' q)) := by
  rw [callFn]
  cases r with
  | data i a =>
    simp [Text.ParseResult_bind, Converted.bind, -ofResult]
    simp only [ofResult]
    simp [h, -ofResult]
    refine toR_congr fun r => ?_
    rw [map_err W u e' e' r _ pure (by intro a; simp)]
    simp [-ofResult]
    rfl
  | error b a =>
    simp [Text.ParseResult_bind, Converted.bind, -stdCall, hc]
  | incomplete n => simp [Text.ParseResult_bind, Converted.bind]

theorem then_from (t : T → Val X Y) (e : E → Val X Y) (u : U → Val X Y) (e' : V → Val X Y) (r : ParseResult X T E)
    (f : Val X Y) (g : Input X → M σ (ParseResult X U V)) (conv : E → M σ V) (h : IsParser W f u e' g)
    (hc : ∀ a, stdCall W "<V as From<E>>::from" [e a] = toR (do let b ← conv a; pure (e' b))) :
    callFn W Text.ParseResult_then [ofResult t e r, f]
      = toR (do let q ← Converted.andThen conv r g; pure (ofResult u e' q)) := by
  rw [callFn]
  simp [Text.ParseResult_then, -ofResult]
  rw [bind_from W t e u e' r _ (fun i _ => g i) conv (by intro i a; simp [h i, -ofResult]) hc]
  simp [Converted.andThen, -ofResult]

omit [Build] in
theorem converted_bind (conv : E → V) (r : ParseResult X T E) (g : Input X → T → M σ (ParseResult X U V)) :
    Converted.bind (fun a => pure (conv a)) r g = r.bind conv g := by cases r <;> rfl

theorem bind (t : T → Val X Y) (e : E → Val X Y) (u : U → Val X Y) (e' : V → Val X Y) (r : ParseResult X T E)
    (f : Val X Y) (g : Input X → T → M σ (ParseResult X U V)) (conv : E → V)
    (h : ∀ i a, apply W f [ofInput i, t a] = toR (do let r ← g i a; pure (ofResult u e' r)))
    (hc : ∀ a, stdCall W "<V as From<E>>::from" [e a] = pure (e' (conv a))) :
    callFn W Text.ParseResult_bind [ofResult t e r, f]
      = toR (do let q ← r.bind conv g; pure (ofResult u e' q)) := by
  rw [← converted_bind]
  exact bind_from W t e u e' r f g _ h fun a => by rw [hc]; rfl

theorem then_ (t : T → Val X Y) (e : E → Val X Y) (u : U → Val X Y) (e' : V → Val X Y) (r : ParseResult X T E)
    (f : Val X Y) (g : Input X → M σ (ParseResult X U V)) (conv : E → V) (h : IsParser W f u e' g)
    (hc : ∀ a, stdCall W "<V as From<E>>::from" [e a] = pure (e' (conv a))) :
    callFn W Text.ParseResult_then [ofResult t e r, f]
      = toR (do let q ← r.andThen conv g; pure (ofResult u e' q)) := by
  rw [ParseResult.andThen, ← converted_bind]
  exact then_from W t e u e' r f g _ h fun a => by rw [hc]; rfl

theorem map (t : T → Val X Y) (e : E → Val X Y) (u : U → Val X Y) (r : ParseResult X T E) (f : Val X Y)
    (g : T → M σ U) (h : ∀ a, apply W f [t a] = toR (do let b ← g a; pure (u b))) :
    callFn W Text.ParseResult_map [ofResult t e r, f] = toR (do let q ← r.map g; pure (ofResult u e q)) := by
  rw [callFn]
  cases r <;> simp [Text.ParseResult_map, ParseResult.map, h]

theorem inspect (t : T → Val X Y) (e : E → Val X Y) (r : ParseResult X T E) (f : Val X Y) (g : T → M σ Unit)
    (h : ∀ a, apply W f [t a] = toR (do let b ← g a; pure (ofUnit b))) :
    callFn W Text.ParseResult_inspect [ofResult t e r, f]
      = toR (do let q ← r.inspect g; pure (ofResult t e q)) := by
  rw [callFn]
  cases r <;> simp [Text.ParseResult_inspect, ParseResult.inspect, h]

theorem unwrap (t : T → Val X Y) (e : E → Val X Y) (r : ParseResult X T E) :
    callFn W Text.ParseResult_unwrap [ofResult t e r] = toR (do let a ← r.unwrap; pure (t a)) := by
  rw [callFn]
  cases r <;> simp [Text.ParseResult_unwrap, ParseResult.unwrap]

theorem expect (t : T → Val X Y) (e : E → Val X Y) (r : ParseResult X T E) (msg : Val X Y) :
    callFn W Text.ParseResult_expect [ofResult t e r, msg] = toR (do let a ← r.expect; pure (t a)) := by
  rw [callFn]
  cases r <;> simp [Text.ParseResult_expect, ParseResult.expect]

theorem unwrap_err (t : T → Val X Y) (e : E → Val X Y) (r : ParseResult X T E) :
    callFn W Text.ParseResult_unwrap_err [ofResult t e r] = toR (do let a ← r.unwrapErr; pure (e a)) := by
  rw [callFn]
  cases r <;> simp [Text.ParseResult_unwrap_err, ParseResult.unwrapErr]

/-! ### `parse_only` -/

/-- `ParseError`, src/parse.rs:7-13. -/
def ofParseError (e : E → Val X Y) (r : ParseError X E) : Val X Y :=
  match r with
  | .error b a => .con "ParseError::Error" [.slice b, e a]
  | .incomplete n => .con "ParseError::Incomplete" [.nat n]

theorem parse_only (t : T → Val X Y) (e : E → Val X Y) (f : Val X Y) (p : Parser σ X T E) (h : IsParser W f t e p)
    (b : List X) :
    callFn W Text.parse_only [f, .slice b]
      = toR (do let r ← parseOnly p b; pure (ofExcept t (ofParseError e) r)) := by
  rw [callFn]
  have hn := input_new W .endOfInput b
  simp only [ofMode] at hn
  simp [Text.parse_only, hn, h _, parseOnly]
  refine toR_congr fun r => ?_
  cases r <;> simp [ofExcept, ofParseError]

/-! ### Combinators -/

theorem option (t : T → Val X Y) (e : E → Val X Y) (f : Val X Y) (p : Parser σ X T E) (h : IsParser W f t e p)
    (i : Input X) (d : T) :
    callFn W Text.option [ofInput i, f, t d]
      = toR (do let r ← Comb.option p d i; pure (ofResult t e r)) := by
  rw [callFn]
  simp [Text.option, h _, Comb.option]
  refine toR_congr fun r => ?_
  cases r <;> cases hi : i.isLastSlice <;> simp [Input.ret, Input.incomplete, hi]

theorem or (t : T → Val X Y) (e : E → Val X Y) (f g : Val X Y) (p q : Parser σ X T E) (hp : IsParser W f t e p)
    (hq : IsParser W g t e q) (i : Input X) :
    callFn W Text.or [ofInput i, f, g] = toR (do let r ← Comb.or p q i; pure (ofResult t e r)) := by
  rw [callFn]
  simp [Text.or, hp _, Comb.or]
  refine toR_congr fun r => ?_
  cases r <;> cases hi : i.isLastSlice <;> simp [Input.ret, Input.incomplete, hi, hq _]

theorem matched_by (t : T → Val X Y) (e : E → Val X Y) (f : Val X Y) (p : Parser σ X T E) (h : IsParser W f t e p)
    (i : Input X) :
    callFn W Text.matched_by [ofInput i, f]
      = toR (do let r ← Comb.matchedBy p i; pure (ofResult (fun a => .tuple [.slice a.1, t a.2]) e r)) := by
  rw [callFn]
  simp [Text.matched_by, h _, Comb.matchedBy]
  refine toR_congr fun r => ?_
  cases r with
  | data b a =>
    simp [Input.ret, sliceTo]
    refine toR_congr fun n => ?_
    by_cases hn : n ≤ i.buf.length <;> simp [hn]
  | error b a => simp [Input.err, Input.replace]
  | incomplete n => simp [Input.incomplete]

theorem look_ahead (t : T → Val X Y) (e : E → Val X Y) (f : Val X Y) (p : Parser σ X T E) (h : IsParser W f t e p)
    (i : Input X) :
    callFn W Text.look_ahead [ofInput i, f] = toR (do let r ← Comb.lookAhead p i; pure (ofResult t e r)) := by
  rw [callFn]
  simp [Text.look_ahead, h _, Comb.lookAhead]
  refine toR_congr fun r => ?_
  cases r <;> simp [Input.err, Input.replace, Input.incomplete, Input.ret]

end Chomp.Rust
