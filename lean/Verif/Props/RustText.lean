import Verif.Rust.Parsers
import Verif.Rust.Scan
import Verif.Rust.Results
import Verif.Rust.Ascii
import Verif.Rust.Repeat

/-
C109: the text of the functions of /repo, run by the rules of Rust, does what the model says.

`Text.f` is the syntax tree of the function `f` of /repo, written by tools/rust.py from the text of /repo
(Verif/Rust/Text.lean); `run W Text.f args` runs it with the interpreter of Verif/Rust/Eval.lean, where `W` are the
user's closures and the implementations of traits for the user's types. `ofInput`, `ofResult` and so on write the values
of the model as values of the interpreter (Verif/Rust/Encode.lean); `t` and `e` do this for values and errors of
the user.

All are equations in `M σ`: the results, the panics, the calls of the closures in their order and the states they leave
are the same, and the interpreter is never stuck.
-/

namespace Chomp.Props

open Rust hiding bind map

variable {σ X Y T U V E N S : Type}

section
variable [Build] (W : World σ X Y) (t : T → Val X Y) (e : E → Val X Y) (u : U → Val X Y) (e' : V → Val X Y)

/-! ### src/input.rs -/

theorem C109_input_new (m : Mode) (b : List X) : run W Text.input_new [ofMode m, .slice b] = pure (ofInput ⟨m, b⟩) :=
  run_eq W (by simp)

theorem C109_Input_new (b : List X) : run W Text.Input_new [.slice b] = pure (ofInput (Input.new b)) :=
  run_eq W (by simp)

theorem C109_Input_ret (i : Input X) (a : T) :
    run W Text.Input_ret [ofInput i, t a] = pure (ofResult t e (i.ret a)) :=
  run_eq W (by simp [ofResult, Input.ret])

theorem C109_Input_err (i : Input X) (a : E) :
    run W Text.Input_err [ofInput i, e a] = pure (ofResult t e (i.err a)) :=
  run_eq W (by simp [ofResult, Input.err])

theorem C109_Input_incomplete (i : Input X) (n : Nat) :
    run W Text.Input_incomplete [ofInput i, .nat n] = pure (ofResult t e (i.incomplete n)) :=
  run_eq W (by simp [ofResult, Input.incomplete])

theorem C109_Input_from_result (i : Input X) (r : Except E T) :
    run W Text.Input_from_result [ofInput i, ofExcept t e r] = pure (ofResult t e (i.fromResult r)) :=
  run_eq W (by simp [Input_from_result])

theorem C109_Input_clone (i : Input X) : run W Text.Input_clone [ofInput i] = pure (ofInput i) := run_eq W (by simp)

theorem C109_Input_buffer (i : Input X) : run W Text.Input_buffer [ofInput i] = pure (.slice i.buf) :=
  run_eq W (by simp)

theorem C109_Input_replace (i : Input X) (b : List X) :
    run W Text.Input_replace [ofInput i, .slice b] = pure (ofInput (i.replace b)) := run_eq W (by simp)

theorem C109_Input_is_last_slice (i : Input X) :
    run W Text.Input_is_last_slice [ofInput i] = pure (.bool i.isLastSlice) := run_eq W (by simp)

/-! ### src/parse_result.rs -/

/-- `conv` is the conversion of errors by `From`. -/
def Converts (conv : E → V) : Prop := ∀ a, stdCall W "<V as From<E>>::from" [e a] = pure (e' (conv a))

theorem C109_bind (r : ParseResult X T E) (f : Val X Y) (g : Input X → T → M σ (ParseResult X U V)) (conv : E → V)
    (h : ∀ i a, apply W f [ofInput i, t a] = toR (do let r ← g i a; pure (ofResult u e' r)))
    (hc : Converts W e e' conv) :
    run W Text.ParseResult_bind [ofResult t e r, f] = (do let q ← r.bind conv g; pure (ofResult u e' q)) :=
  run_eq W (Rust.bind W t e u e' r f g conv h hc)

theorem C109_then (r : ParseResult X T E) (f : Val X Y) (g : Parser σ X U V) (conv : E → V)
    (h : IsParser W f u e' g) (hc : Converts W e e' conv) :
    run W Text.ParseResult_then [ofResult t e r, f] = (do let q ← r.andThen conv g; pure (ofResult u e' q)) :=
  run_eq W (then_ W t e u e' r f g conv h hc)

theorem C109_map (r : ParseResult X T E) (f : Val X Y) (g : T → M σ U)
    (h : ∀ a, apply W f [t a] = toR (do let b ← g a; pure (u b))) :
    run W Text.ParseResult_map [ofResult t e r, f] = (do let q ← r.map g; pure (ofResult u e q)) :=
  run_eq W (Rust.map W t e u r f g h)

theorem C109_map_err (r : ParseResult X T E) (f : Val X Y) (g : E → M σ V)
    (h : ∀ a, apply W f [e a] = toR (do let b ← g a; pure (e' b))) :
    run W Text.ParseResult_map_err [ofResult t e r, f] = (do let q ← r.mapErr g; pure (ofResult t e' q)) :=
  run_eq W (map_err W t e e' r f g h)

theorem C109_inspect (r : ParseResult X T E) (f : Val X Y) (g : T → M σ Unit)
    (h : ∀ a, apply W f [t a] = toR (do let b ← g a; pure (ofUnit b))) :
    run W Text.ParseResult_inspect [ofResult t e r, f] = (do let q ← r.inspect g; pure (ofResult t e q)) :=
  run_eq W (inspect W t e r f g h)

theorem C109_unwrap (r : ParseResult X T E) :
    run W Text.ParseResult_unwrap [ofResult t e r] = (do let a ← r.unwrap; pure (t a)) :=
  run_eq W (unwrap W t e r)

theorem C109_expect (r : ParseResult X T E) (msg : Val X Y) :
    run W Text.ParseResult_expect [ofResult t e r, msg] = (do let a ← r.expect; pure (t a)) :=
  run_eq W (expect W t e r msg)

theorem C109_unwrap_err (r : ParseResult X T E) :
    run W Text.ParseResult_unwrap_err [ofResult t e r] = (do let a ← r.unwrapErr; pure (e a)) :=
  run_eq W (unwrap_err W t e r)

/-! ### src/parse.rs -/

theorem C109_parse_only (f : Val X Y) (p : Parser σ X T E) (h : IsParser W f t e p) (b : List X) :
    run W Text.parse_only [f, .slice b] = (do let r ← parseOnly p b; pure (ofExcept t (ofParseError e) r)) :=
  run_eq W (parse_only W t e f p h b)

/-! ### src/parsers.rs -/

theorem C109_any (i : Input X) :
    run W Text.any [ofInput i] = (do let r ← Parsers.any i; pure (ofResult .item ofError r)) := run_eq W (any W i)

theorem C109_satisfy (i : Input X) (f : Val X Y) (g : X → M σ Bool) (h : IsPred W f g) :
    run W Text.satisfy [ofInput i, f]
      = (do let r ← Closures.satisfy W.verbose g i; pure (ofResult .item ofError r)) := run_eq W (satisfy W i f g h)

theorem C109_satisfy_with (i : Input X) (f p : Val X Y) (y : T → Y) (g : X → M σ T) (q : T → M σ Bool)
    (cloneT : T → M σ T)
    (hf : ∀ x, apply W f [.item x] = toR (do let a ← g x; pure (.other (y a))))
    (hp : ∀ a, apply W p [.other (y a)] = toR (do let b ← q a; pure (.bool b)))
    (hc : ∀ a, W.cloneOther (y a) = (do let b ← cloneT a; pure (y b))) :
    run W Text.satisfy_with [ofInput i, f, p]
      = (do
        let r ← Cloned.satisfyWith W.clone cloneT W.verbose g q i
        pure (ofResult (fun a => .other (y a)) ofError r)) := run_eq W (satisfy_with W i f p y g q cloneT hf hp hc)

theorem C109_token (i : Input X) (x : X) :
    run W Text.token [ofInput i, .item x]
      = (do let r ← Closures.token W.eq W.verbose x i; pure (ofResult .item ofError r)) := run_eq W (token W i x)

theorem C109_not_token (i : Input X) (x : X) :
    run W Text.not_token [ofInput i, .item x]
      = (do let r ← Closures.notToken W.ne W.verbose x i; pure (ofResult .item ofError r)) := run_eq W (not_token W i x)

theorem C109_peek (i : Input X) :
    run W Text.peek [ofInput i] = (do let r ← Cloned.peek W.clone i; pure (ofResult (ofOption .item) ofError r)) :=
  run_eq W (peek W i)

theorem C109_peek_next (i : Input X) :
    run W Text.peek_next [ofInput i] = (do let r ← Cloned.peekNext W.clone i; pure (ofResult .item ofError r)) :=
  run_eq W (peek_next W i)

theorem C109_take (i : Input X) (n : Nat) :
    run W Text.take [ofInput i, .nat n] = (do let r ← Parsers.take n i; pure (ofResult .slice ofError r)) :=
  run_eq W (take W i n)

theorem C109_take_while (i : Input X) (f : Val X Y) (g : X → M σ Bool) (h : IsPred W f g) :
    run W Text.take_while [ofInput i, f] = (do let r ← Closures.takeWhile g i; pure (ofResult .slice ofError r)) :=
  run_eq W (take_while W i f g h)

theorem C109_take_while1 (i : Input X) (f : Val X Y) (g : X → M σ Bool) (h : IsPred W f g) :
    run W Text.take_while1 [ofInput i, f]
      = (do let r ← Closures.takeWhile1 W.verbose g i; pure (ofResult .slice ofError r)) :=
  run_eq W (take_while1 W i f g h)

theorem C109_take_till (i : Input X) (f : Val X Y) (g : X → M σ Bool) (h : IsPred W f g) :
    run W Text.take_till [ofInput i, f]
      = (do let r ← Cloned.takeTill W.clone g i; pure (ofResult .slice ofError r)) := run_eq W (take_till W i f g h)

theorem C109_scan (i : Input X) (f : Val X Y) (y : S → Val X Y) (s : S) (g : S → X → M σ (Option S))
    (h : ∀ s c, apply W f [y s, .item c] = toR (do let r ← g s c; pure (ofOption y r))) :
    run W Text.scan [ofInput i, y s, f] = (do let r ← Closures.scan s g i; pure (ofResult .slice ofError r)) :=
  run_eq W (scan W i f y s g h)

theorem C109_run_scanner (i : Input X) (f : Val X Y) (y : S → Val X Y) (s : S) (g : S → X → M σ (Option S))
    (h : ∀ s c, apply W f [y s, .item c] = toR (do let r ← g s c; pure (ofOption y r))) :
    run W Text.run_scanner [ofInput i, y s, f]
      = (do
        let r ← Closures.runScanner s g i
        pure (ofResult (fun a => .tuple [.slice a.1, y a.2]) ofError r)) :=
  run_eq W (run_scanner W i f y s g h)

theorem C109_take_remainder (i : Input X) :
    run W Text.take_remainder [ofInput i]
      = (do let r ← Parsers.takeRemainder i; pure (ofResult .slice ofError r)) := run_eq W (take_remainder W i)

theorem C109_string (i : Input X) (s : List X) :
    run W Text.string [ofInput i, .slice s]
      = (do let r ← Closures.string W.ne W.verbose s i; pure (ofResult .slice ofError r)) := run_eq W (string W i s)

theorem C109_eof (i : Input X) :
    run W Text.eof [ofInput i] = (do let r ← Parsers.eof W.verbose i; pure (ofResult ofUnit ofError r)) :=
  run_eq W (eof W i)

/-! ### src/combinators/mod.rs -/

theorem C109_option (f : Val X Y) (p : Parser σ X T E) (h : IsParser W f t e p) (i : Input X) (d : T) :
    run W Text.option [ofInput i, f, t d] = (do let r ← Comb.option p d i; pure (ofResult t e r)) :=
  run_eq W (option W t e f p h i d)

theorem C109_or (f g : Val X Y) (p q : Parser σ X T E) (hp : IsParser W f t e p) (hq : IsParser W g t e q)
    (i : Input X) : run W Text.or [ofInput i, f, g] = (do let r ← Comb.or p q i; pure (ofResult t e r)) :=
  run_eq W (Rust.or W t e f g p q hp hq i)

theorem C109_matched_by (f : Val X Y) (p : Parser σ X T E) (h : IsParser W f t e p) (i : Input X) :
    run W Text.matched_by [ofInput i, f]
      = (do let r ← Comb.matchedBy p i; pure (ofResult (fun a => .tuple [.slice a.1, t a.2]) e r)) :=
  run_eq W (matched_by W t e f p h i)

theorem C109_look_ahead (f : Val X Y) (p : Parser σ X T E) (h : IsParser W f t e p) (i : Input X) :
    run W Text.look_ahead [ofInput i, f] = (do let r ← Comb.lookAhead p i; pure (ofResult t e r)) :=
  run_eq W (look_ahead W t e f p h i)

theorem C109_skip_many (f : Val X Y) (p : Parser σ X T E) (h : IsParser W f t e p) (i : Input X) :
    run W Text.skip_many [ofInput i, f] = (do let r ← Comb.skipMany p i; pure (ofResult ofUnit e r)) :=
  run_eq W (skip_many W t e f p h i)

theorem C109_skip_many1 (f : Val X Y) (p : Parser σ X T E) (h : IsParser W f t e p) (i : Input X) :
    run W Text.skip_many1 [ofInput i, f] = (do let r ← Comb.skipMany1 p i; pure (ofResult ofUnit e r)) :=
  run_eq W (skip_many1 W t e f p h i)

/-! ### src/combinators/bounded.rs -/

theorem C109_bounded_skip_many (f : Val X Y) (p : Parser σ X T E) (h : IsParser W f t e p) (i : Input X)
    (r : Bounded.Range) :
    run W Text.bounded_skip_many [ofInput i, ofRange r, f]
      = (do let r ← Bounded.skipMany r p i; pure (ofResult ofUnit e r)) :=
  run_eq W (bounded_skip_many W t e f p h i r)

end

/-! ### Collecting

`c` is the implementation of `FromIterator` for the collection: a machine which asks the iterator for the next item or
for its `size_hint`, does something to the captured state, panics, or is done. `Collects W.collect c u t` says that `W` has this implementation, on values of
the interpreter. -/

section
variable [Build] (W : World σ X Y) (u : U → Val X Y) (t : T → Val X Y) (e : E → Val X Y) (v : V → Val X Y)
  (e' : N → Val X Y) (c : Machine σ U T) (hc : Collects W.collect c u t) (f g : Val X Y) (p : Parser σ X U E)
  (hp : IsParser W f u e p) (q : Parser σ X V N) (hq : IsParser W g v e' q) (i : Input X)
include hc hp

theorem C109_bounded_many (r : Bounded.Range) :
    run W Text.bounded_many [ofInput i, ofRange r, f]
      = (do let r ← Bounded.manyWith r c.driver p i; pure (ofResult t e r)) :=
  run_eq W (many_plain W u e f p hc hp i r)

theorem C109_count (n : Nat) :
    run W Text.count [ofInput i, .nat n, f]
      = (do let r ← Bounded.manyWith (.exactly n) c.driver p i; pure (ofResult t e r)) :=
  run_eq W (count W u e f p hc hp i n)

theorem C109_many :
    run W Text.many [ofInput i, f] = (do let r ← Bounded.manyWith .full c.driver p i; pure (ofResult t e r)) :=
  run_eq W (many W u e f p hc hp i)

theorem C109_many1 :
    run W Text.many1 [ofInput i, f]
      = (do let r ← Bounded.manyWith (.from_ 1) c.driver p i; pure (ofResult t e r)) :=
  run_eq W (many1 W u e f p hc hp i)

include hq

theorem C109_bounded_many_till (r : Bounded.Range) :
    run W Text.bounded_many_till [ofInput i, ofRange r, f, g]
      = (do let r ← Bounded.manyTillWith r c.driver p q i; pure (ofResult t e r)) :=
  run_eq W (many_till_plain W u e v e' f g p q hc hp hq i r)

theorem C109_many_till :
    run W Text.many_till [ofInput i, f, g]
      = (do let r ← Bounded.manyTillWith .full c.driver p q i; pure (ofResult t e r)) :=
  run_eq W (many_till W u e v e' f g p q hc hp hq i)

/-- The closure of `sep_by` captures the variable `item` of the text, which is `false` at first. -/
theorem C109_sep_by (conv : N → E) (hconv : Converts W e' e conv) :
    run W Text.sep_by [ofInput i, f, g]
      = (do
        let r ← Comb.newLocal false (Bounded.manyWith .full c.inner.driver (Comb.sepParser conv p q) i)
        pure (ofResult t e r)) :=
  run_eq W (sep_by W u e v e' f g p q conv hc hp hq hconv i)

theorem C109_sep_by1 (conv : N → E) (hconv : Converts W e' e conv) :
    run W Text.sep_by1 [ofInput i, f, g]
      = (do
        let r ← Comb.newLocal false (Bounded.manyWith (.from_ 1) c.inner.driver (Comb.sepParser conv p q) i)
        pure (ofResult t e r)) :=
  run_eq W (sep_by1 W u e v e' f g p q conv hc hp hq hconv i)

omit hc in
/-- For the collections of the other properties, with the functions which those are about. -/
theorem C109_collect (c : Collect U T) (hc : Collects W.collect c.consumer.machine u t) (conv : N → E)
    (hconv : Converts W e' e conv) (n : Nat) (r : Bounded.Range) :
    run W Text.count [ofInput i, .nat n, f] = (do let r ← Comb.count n c p i; pure (ofResult t e r)) ∧
    run W Text.many [ofInput i, f] = (do let r ← Comb.many c p i; pure (ofResult t e r)) ∧
    run W Text.many1 [ofInput i, f] = (do let r ← Comb.many1 c p i; pure (ofResult t e r)) ∧
    run W Text.sep_by [ofInput i, f, g] = (do let r ← Comb.sepBy conv c p q i; pure (ofResult t e r)) ∧
    run W Text.sep_by1 [ofInput i, f, g] = (do let r ← Comb.sepBy1 conv c p q i; pure (ofResult t e r)) ∧
    run W Text.many_till [ofInput i, f, g] = (do let r ← Comb.manyTill c p q i; pure (ofResult t e r)) ∧
    run W Text.bounded_many [ofInput i, ofRange r, f]
      = (do let r ← Bounded.many r c p i; pure (ofResult t e r)) ∧
    run W Text.bounded_many_till [ofInput i, ofRange r, f, g]
      = (do let r ← Bounded.manyTill r c p q i; pure (ofResult t e r)) := by
  have h1 := C109_count W u t e _ hc f p hp i n
  have h2 := C109_many W u t e _ hc f p hp i
  have h3 := C109_many1 W u t e _ hc f p hp i
  have h4 := C109_sep_by W u t e v e' _ hc f g p hp q hq i conv hconv
  have h5 := C109_sep_by1 W u t e v e' _ hc f g p hp q hq i conv hconv
  have h6 := C109_many_till W u t e v e' _ hc f g p hp q hq i
  have h7 := C109_bounded_many W u t e _ hc f p hp i r
  have h8 := C109_bounded_many_till W u t e v e' _ hc f g p hp q hq i r
  rw [Consumer.machine_inner] at h4 h5
  rw [Consumer.machine_driver, Collect.consumer_driver] at h1 h2 h3 h4 h5 h6 h7 h8
  exact ⟨h1, h2, h3, h4, h5, h6, h7, h8⟩

end

/-! ### src/ascii.rs -/

section
variable [Build] (W : World σ UInt8 Y) (hW : Bytes W)
include hW

theorem C109_classes (c : UInt8) :
    run W Text.is_lowercase [.item c] = pure (.bool (Ascii.isLowercase c)) ∧
    run W Text.is_uppercase [.item c] = pure (.bool (Ascii.isUppercase c)) ∧
    run W Text.is_whitespace [.item c] = pure (.bool (Ascii.isWhitespace c)) ∧
    run W Text.is_horizontal_space [.item c] = pure (.bool (Ascii.isHorizontalSpace c)) ∧
    run W Text.is_end_of_line [.item c] = pure (.bool (Ascii.isEndOfLine c)) ∧
    run W Text.is_digit [.item c] = pure (.bool (Ascii.isDigit c)) ∧
    run W Text.is_alpha [.item c] = pure (.bool (Ascii.isAlpha c)) ∧
    run W Text.is_alphanumeric [.item c] = pure (.bool (Ascii.isAlphanumeric c)) :=
  ⟨run_eq W (is_lowercase W hW c), run_eq W (is_uppercase W hW c), run_eq W (is_whitespace W hW c),
    run_eq W (is_horizontal_space W hW c), run_eq W (is_end_of_line W hW c), run_eq W (is_digit W hW c),
    run_eq W (is_alpha W hW c), run_eq W (is_alphanumeric W hW c)⟩

theorem C109_skip_whitespace (i : Input UInt8) :
    run W Text.skip_whitespace [ofInput i]
      = (do let r ← Ascii.skipWhitespace i; pure (ofResult ofUnit ofError r)) := run_eq W (skip_whitespace W hW i)

theorem C109_digit (i : Input UInt8) :
    run W Text.digit [ofInput i] = (do let r ← Ascii.digit W.verbose i; pure (ofResult .item ofError r)) :=
  run_eq W (digit W hW i)

theorem C109_decimal (y : T → Y) (N : Ascii.Num T) (hN : Numbers W y N) (i : Input UInt8) :
    run W Text.decimal [ofInput i]
      = (do let r ← Ascii.decimal W.verbose N i; pure (ofResult (fun x => .other (y x)) ofError r)) :=
  run_eq W (decimal W hW y N hN i)

theorem C109_signed (y : T → Y) (N : Ascii.Num T) (hN : Numbers W y N) (i : Input UInt8) (f : Val UInt8 Y)
    (p : Parser σ UInt8 T (Error UInt8)) (h : IsParser W f (fun x => .other (y x)) ofError p) :
    run W Text.signed [ofInput i, f]
      = (do let r ← Ascii.signed W.verbose N p i; pure (ofResult (fun x => .other (y x)) ofError r)) :=
  run_eq W (signed W hW y N hN i f p h)

end

/-! ### Cases which meet the hypotheses -/

namespace TextEx

/-- A `Vec` which asks for the `size_hint` first. -/
def vec (t : List U → T) : Consumer U T where
  State := Option (List U × Bool)
  start := none
  ask s := match s with
    | none => .hint (fun _ => some ([], false))
    | some (l, false) => .next (fun o => match o with
      | some x => some (l ++ [x], false)
      | none => some (l, true))
    | some (l, true) => .done (t l)

/-- Bytes, `i32` with overflow checks, and two closures of the user: closure 0 counts its calls and says whether the byte
is not a line end, closure 1 is a parser which takes one item, closure 2 one which takes a comma. Items are collected in a
`Vec`, which asks for the `size_hint` first. -/
def world : World Nat UInt8 Int where
  verbose := true
  ext k vs :=
    match k, vs with
    | 0, [.item c] => fun n => .ok (.bool (c != 10), n + 1)
    | 1, [.con _ [.con _ [.nat m], .slice b]] => do
      let r ← Parsers.any ⟨if m = 0 then .default else .endOfInput, b⟩
      pure (ofResult .item ofError r)
    | 2, [.con _ [.con _ [.nat m], .slice b]] => do
      let r ← Parsers.token true 44 ⟨if m = 0 then .default else .endOfInput, b⟩
      pure (ofResult .item ofError r)
    | _, _ => M.ub
  eq a b := pure (a == b)
  ne a b := pure (a != b)
  clone := pure
  cloneOther := pure
  from_ := pure
  byte := UInt8.ofNat
  le a b := decide (a ≤ b)
  sub a b := if b ≤ a then .ok (a - b) else .panic
  fromU8 b := pure b.toNat
  fromI8 x := pure x
  add a b := M.lift ((⟨32, true, true⟩ : Ascii.IntTy).num.add a b)
  mul a b := M.lift ((⟨32, true, true⟩ : Ascii.IntTy).num.mul a b)
  collect := (vec (.con "Vec" ·)).machine

theorem bytes : Bytes world := ⟨fun _ => rfl, fun _ _ => rfl, fun _ _ => rfl, fun _ _ => rfl⟩

theorem numbers : Numbers world id (⟨32, true, true⟩ : Ascii.IntTy).num :=
  ⟨fun _ => rfl, fun _ => rfl, fun a b => by
    exact (bind_pure _).symm, fun a b => by
    exact (bind_pure _).symm⟩

variable [Build]

theorem counts : IsPred world (.ext 0) (fun c n => .ok (c != 10, n + 1)) := by
  intro x
  simp only [apply]
  rfl

theorem one : IsParser world (.ext 1) .item ofError Parsers.any := by
  intro i
  obtain ⟨m, b⟩ := i
  simp only [apply]
  cases m <;> rfl

/-- A function of the crate as an argument. -/
theorem anyFn : IsParser world (.fn "any") .item ofError Parsers.any := by
  intro i
  simp [apply, Rust.any]

-- "-12a" is -12, as the text of `signed` and `decimal` is written
example : run world Text.signed [ofInput ⟨.default, [45, 49, 50, 97]⟩, .fn "decimal"] 0
    = .ok (ofResult (.other ·) ofError (.data ⟨.default, [97]⟩ (-12)), 0) := by
  rw [C109_signed world bytes id _ numbers _ _ (Ascii.decimal true (⟨32, true, true⟩ : Ascii.IntTy).num)
    (fun i => by simp [apply]; exact decimal world bytes id _ numbers i)]
  rfl

-- 2147483648 does not fit into `i32`
example : run world Text.decimal [ofInput ⟨.endOfInput, [50, 49, 52, 55, 52, 56, 51, 54, 52, 56]⟩] 0 = .panic := by
  rw [C109_decimal world bytes id _ numbers]
  rfl

-- the closure is called three times, also on the line end
example : run world Text.take_while [ofInput ⟨.default, [1, 2, 10, 3]⟩, .ext 0] 7
    = .ok (ofResult .slice ofError (.data ⟨.default, [10, 3]⟩ [1, 2]), 10) := by
  rw [C109_take_while world _ _ _ counts]
  rfl

-- `skip_many(i, 1..3, any)` takes two of three items
example : run world Text.bounded_skip_many [ofInput ⟨.default, [1, 2, 3]⟩, ofRange (.range 1 3), .ext 1] 0
    = .ok (ofResult ofUnit ofError (.data ⟨.default, [3]⟩ ()), 0) := by
  have h : Bounded.skipMany (.range 1 3) Parsers.any ⟨.default, [1, 2, 3]⟩ (0 : Nat)
      = .ok ((.data ⟨.default, [3]⟩ () : ParseResult UInt8 Unit (Error UInt8)), 0) :=
    loop_eq_ok.2 (.cont rfl (.cont rfl (.brk rfl)))
  rw [C109_bounded_skip_many world .item ofError _ _ one]
  show Res.bind _ _ = _
  rw [h]
  rfl

/-- The vectors of bytes. -/
def vecs : CollectsPure (Y := Int) (vec (.con "Vec" ·)) (vec (U := UInt8) id) .item (fun l => .con "Vec" (l.map .item)) where
  state s := s.map fun a => (a.1.map .item, a.2)
  start := rfl
  done s r h := by
    match s, h with
    | some (l, true), h => cases h; rfl
  panic s h := by
    match s, h with
    | none, h => cases h
    | some (l, true), h => cases h
    | some (l, false), h => cases h
  next s k h := by
    match s, h with
    | some (l, false), h =>
      cases h
      refine ⟨_, rfl, fun o => ?_⟩
      cases o <;> simp <;> rfl
  hint s k h := by
    match s, h with
    | none, h =>
      cases h
      exact ⟨_, rfl, fun _ => rfl⟩

theorem comma : IsParser world (.ext 2) .item ofError (Parsers.token true 44) := by
  intro i
  obtain ⟨m, b⟩ := i
  simp only [apply]
  cases m <;> rfl

-- `sep_by(i, any, comma)` on "1,2;"
example : run world Text.sep_by [ofInput ⟨.default, [49, 44, 50, 59]⟩, .ext 1, .ext 2] 0
    = .ok (ofResult (fun l => .con "Vec" (l.map .item)) ofError (.data ⟨.default, [59]⟩ [49, 50]), 0) := by
  rw [C109_sep_by world .item _ ofError .item ofError _ vecs.machine _ _ _ one _ comma _ id (fun a => by cases a <;> rfl),
    Consumer.machine_inner, Consumer.machine_driver]
  have h : Bounded.manyWith .full (vec (U := UInt8) id).driver (Comb.sepParser id Parsers.any (Parsers.token true 44))
      ⟨.default, [49, 44, 50, 59]⟩ ((0 : Nat), false)
      = .ok ((.data ⟨.default, [59]⟩ [49, 50] : ParseResult UInt8 (List UInt8) (Error UInt8)), (0, true)) := by
    show Res.bind (Consumer.driver _ _ _ _ _ _) _ = _
    rw [Consumer.driver, loop_eq_ok.2 (.cont rfl (.cont rfl (.cont rfl (.cont rfl (.brk rfl)))))]
    rfl
  show Res.bind (Comb.newLocal false _ 0) _ = _
  rw [Comb.newLocal, h]
  rfl

-- `or(i, any, any)` on nothing
example : run world Text.or [ofInput ⟨.default, []⟩, .ext 1, .fn "any"] 0
    = .ok (ofResult .item ofError (.incomplete 1), 0) := by
  rw [C109_or world .item ofError _ _ _ _ one anyFn]
  rfl

example : Converts world (ofError (X := UInt8)) ofError id := fun a => by cases a <;> rfl
example : Converts world (.other ·) (.other ·) id := fun _ => rfl

-- an expression which makes no sense is not a result: the fourth field of an input
example : run world ⟨[.bind false "i"], .field (.path "i") "3", false⟩ [ofInput ⟨.default, [1]⟩] 0 = .ub := by
  have : callFn world ⟨[.bind false "i"], .field (.path "i") "3", false⟩ [ofInput ⟨.default, [1]⟩] = toR M.ub := by
    rw [callFn]
    simp [matchPats, matchPat, scope, eval, Rust.find, ofInput, Val.field, Rust.index]
    rfl
  rw [run_eq world this]
  rfl

end TextEx

end Chomp.Props
