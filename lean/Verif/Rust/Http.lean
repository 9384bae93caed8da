import Verif.Rust.Constructors
import Verif.Rust.Parsers
import Verif.Rust.Results
import Verif.Rust.Repeat
import Verif.Rust.Ascii
import Verif.Lemmas.Closures
import Verif.Model.Http
import Verif.Props.Clone

/-
The texts of the functions of /repo/examples/http_parser.rs do what their models say.
-/

set_option linter.unusedSimpArgs false

namespace Chomp.Rust

variable {σ Y : Type}

/-- `FromIterator for Vec<U>` on values of the interpreter. -/
def vecOf {X Y : Type} : Collect (Val X Y) (Val X Y) where
  Acc := List (Val X Y)
  start := .inl []
  feed acc u := .inl (u :: acc)
  finish acc := .con "Vec" acc.reverse

/-- A `Vec` of results of parsers. -/
def ofVec {X Y : Type} (u : U → Val X Y) (l : List U) : Val X Y := .con "Vec" (l.map u)

/-- Collecting values is the same for all types. -/
def collectsVec {X Y : Type} (u : U → Val X Y) : CollectsPure (vecOf (X := X) (Y := Y)).consumer (Collect.vec U).consumer u (ofVec u) where
  state s := match s with
    | .inl acc => .inl (acc.map u)
    | .inr l => .inr (ofVec u l)
  start := rfl
  done s r h := by
    match s, h with
    | .inr l, h => cases h; rfl
  panic s h := by
    match s, h with
    | .inr l, h => cases h
    | .inl l, h => cases h
  next s k h := by
    match s, h with
    | .inl acc, h =>
      cases h
      refine ⟨_, rfl, fun o => ?_⟩
      cases o with
      | none =>
        show Sum.inr (Val.con "Vec" (acc.map u).reverse) = Sum.inr (Val.con "Vec" (List.map u acc.reverse))
        exact congrArg (fun l => Sum.inr (Val.con "Vec" l)) (List.map_reverse (l := (acc : List U))).symm
      | some x => rfl
  hint s k h := by
    match s, h with
    | .inl acc, h => cases h
    | .inr acc, h => cases h

variable [Build] (W : World σ UInt8 Y)

/-- The types of the program: bytes, `Vec`, and numbers of the type `i32`. -/
structure Program (num : Int → Y) : Prop where
  bytes : Bytes W
  ne : ∀ a b, W.ne a b = pure (a != b)
  clone : ∀ a, W.clone a = pure a
  numbers : Numbers W num (Http.counter Build.checked).num
  collect : W.collect = vecOf.consumer.machine

attribute [local simp] apply eval evals evalArms callStd callMethod_eq receiver matchPats matchPat scope find
  constant binop stdByMut

attribute [-simp] bind_pure_comp

/-! ### Predicates -/

section
variable (hW : Bytes W)
include hW

theorem http_is_horizontal_space : IsTest W (.fn "http::is_horizontal_space") Http.isHorizontalSpace := by
  intro c
  rw [apply_fn W (Text.find_http_is_horizontal_space _), callFn]
  simp [Text.http_is_horizontal_space, hW.byte, hW.eq, Http.isHorizontalSpace]
  by_cases h : c = 32
  · simp [h]
  · simp [h, beq_eq_false_iff_ne.2 h]

theorem http_is_space : IsTest W (.fn "http::is_space") Http.isSpace := by
  intro c
  rw [apply_fn W (Text.find_http_is_space _), callFn]
  simp [Text.http_is_space, hW.byte, hW.eq, Http.isSpace]

theorem http_is_not_space (hn : ∀ a b, W.ne a b = pure (a != b)) : IsTest W (.fn "http::is_not_space") Http.isNotSpace := by
  intro c
  rw [apply_fn W (Text.find_http_is_not_space _), callFn]
  simp [Text.http_is_not_space, hW.byte, hn, Http.isNotSpace]

theorem http_is_end_of_line : IsTest W (.fn "http::is_end_of_line") Http.isEndOfLine := by
  intro c
  rw [apply_fn W (Text.find_http_is_end_of_line _), callFn]
  simp [Text.http_is_end_of_line, hW.byte, hW.eq, Http.isEndOfLine]
  by_cases h : c = 13
  · simp [h]
  · simp [h, beq_eq_false_iff_ne.2 h]

theorem http_is_http_version : IsTest W (.fn "http::is_http_version") Http.isHttpVersion := by
  intro c
  rw [apply_fn W (Text.find_http_is_http_version _), callFn]
  simp [Text.http_is_http_version, hW.byte, hW.eq, hW.le, Http.isHttpVersion]
  by_cases h : (48 : UInt8) ≤ c <;> by_cases h' : c ≤ (57 : UInt8) <;> simp [h, h']

/-- An arm with a byte. -/
theorem arm_byte (env : Env UInt8 Y) (c : UInt8) (n : Nat) (arms : List Arm) :
    evalArms W env (.item c) (.mk (.bind false "x@") (.bin .eq (.path "x@") (.byte n)) (.bool false) :: arms)
      = if c == UInt8.ofNat n then pure (.bool false) else evalArms W env (.item c) arms := by
  rw [evalArms]
  simp [-evalArms, hW.byte, hW.eq]
  by_cases h : c = UInt8.ofNat n
  · simp [h]
  · simp [h, beq_eq_false_iff_ne.2 h]

/-- An arm with a range of bytes. -/
theorem arm_range (env : Env UInt8 Y) (c : UInt8) (m n : Nat) (arms : List Arm) :
    evalArms W env (.item c) (.mk (.bind false "x@") (.and (.bin .le (.byte m) (.path "x@")) (.bin .le (.path "x@") (.byte n)))
        (.bool false) :: arms)
      = if decide (UInt8.ofNat m ≤ c) && decide (c ≤ UInt8.ofNat n) then pure (.bool false) else evalArms W env (.item c) arms := by
  rw [evalArms]
  simp [-evalArms, hW.byte, hW.le]
  by_cases h : UInt8.ofNat m ≤ c <;> by_cases h' : c ≤ UInt8.ofNat n <;> simp [h, h']

/-- The arms of the separators, and the one for the rest. -/
theorem arms_bytes (env : Env UInt8 Y) (c : UInt8) (ns : List Nat) :
    evalArms W env (.item c) (ns.map (fun n => .mk (.bind false "x@") (.bin .eq (.path "x@") (.byte n)) (.bool false))
        ++ [.mk .wild (.bool true) (.bool true)])
      = pure (.bool (if c ∈ ns.map UInt8.ofNat then false else true)) := by
  induction ns with
  | nil => simp
  | cons n ns ih =>
    rw [List.map_cons, List.cons_append, arm_byte W hW, ih]
    by_cases h : c = UInt8.ofNat n
    · simp [h]
    · rw [beq_eq_false_iff_ne.2 h, if_neg (by decide)]
      simp [h]

theorem http_is_token : IsTest W (.fn "http::is_token") Http.isToken := by
  intro c
  rw [apply_fn W (Text.find_http_is_token _), callFn]
  simp only [Text.http_is_token, matchPats, matchPat]
  simp [-evalArms]
  rw [arm_range W hW, arm_range W hW]
  have h := arms_bytes W hW [("c", .inl (.item c))] c [40, 41, 60, 62, 64, 44, 59, 58, 92, 34, 47, 91, 93, 63, 61, 123, 125, 32]
  have hl : c ≤ UInt8.ofNat 255 := UInt8.le_iff_toNat_le.2 (by have := c.toNat_lt; simp; omega)
  have h0 : UInt8.ofNat 0 ≤ c := UInt8.le_iff_toNat_le.2 (by simp)
  rw [decide_eq_true hl, decide_eq_true h0, Bool.and_true, Bool.true_and]
  refine (congrArg (fun m => catchRet (if decide (UInt8.ofNat 128 ≤ c) = true then pure (Val.bool false)
    else if decide (c ≤ UInt8.ofNat 31) = true then pure (Val.bool false) else m)) h).trans ?_
  rw [Http.isToken]
  by_cases h1 : (128 : UInt8) ≤ c
  · simp [h1]
  · by_cases h2 : c ≤ (31 : UInt8)
    · simp [h2]
    · simp [h1, h2]

end

/-! ### Statements of `parse!` -/

/-- An expression which parses. -/
def Runs (env : Env UInt8 Y) (a : Expr) (t : T → Val UInt8 Y) (p : M σ (ParseResult UInt8 T (Error UInt8))) : Prop :=
  eval W env a = toR (do let r ← p; pure (ofResult t ofError r))

namespace Runs
variable {W} {env : Env UInt8 Y} {a b : Expr} {t : T → Val UInt8 Y} {u : U → Val UInt8 Y} {i : Input UInt8}

omit [Build] in
theorem from_ok (a : Error UInt8) : stdCall W "<V as From<E>>::from" [ofError a] = pure (ofError (id a)) := by
  cases a <;> simp [stdCall, ofError]

theorem eval_method (e : Expr) (r : ParseResult UInt8 T (Error UInt8)) (f : Val UInt8 Y) :
    callMethod W (receiver env e (ofResult t ofError r)) (ofResult t ofError r) "bind" [f]
      = callFn W Text.ParseResult_bind [ofResult t ofError r, f] := by
  simp

theorem bind_ {ps : List Pat} {p : M σ (ParseResult UInt8 T (Error UInt8))}
    {q : Input UInt8 → T → M σ (ParseResult UInt8 U (Error UInt8))} (ha : Runs W env a t p)
    (hq : ∀ i x, apply W (.clo ps b env) [ofInput i, t x] = toR (do let r ← q i x; pure (ofResult u ofError r))) :
    Runs W env (.method a "bind" [.closure ps b]) u (do let r ← p; r.bind id q) := by
  unfold Runs at *
  rw [eval, ha]
  simp [-callMethod_eq, -receiver, eval_method]
  refine toR_congr fun r => ?_
  rw [Rust.bind W t ofError u ofError r _ q id hq from_ok]
  simp

/-- `let v = a; b` -/
theorem bind {v : String} {p : Parser σ UInt8 T (Error UInt8)} {q : T → Parser σ UInt8 U (Error UInt8)} (ha : Runs W env a t (p i))
    (hb : ∀ i x, Runs W ((v, .inl (t x)) :: ("i@", .inl (ofInput i)) :: env) b u (q x i)) :
    Runs W env (.method a "bind" [.closure [.bind false "i@", .bind false v] b]) u (Parser.bind id p q i) := by
  refine bind_ ha fun i x => ?_
  have h := hb i x
  unfold Runs at h
  rw [apply]
  simp only [matchPats, matchPat]
  simp [h]

/-- `a; b` -/
theorem andThen {p : Parser σ UInt8 T (Error UInt8)} {q : Parser σ UInt8 U (Error UInt8)} (ha : Runs W env a t (p i))
    (hb : ∀ i, Runs W (("i@", .inl (ofInput i)) :: env) b u (q i)) :
    Runs W env (.method a "bind" [.closure [.bind false "i@", .wild] b]) u (Parser.andThen id p q i) := by
  refine bind_ ha fun i x => ?_
  have h := hb i
  unfold Runs at h
  rw [apply]
  simp only [matchPats, matchPat]
  simp [h]

/-- `ret e` -/
theorem ret {e : Expr} {x : T} (hi : find env "i@" = some (.inl (ofInput i))) (he : eval W env e = pure (t x)) :
    Runs W env (.method (.path "i@") "ret" [e]) t (Parser.ret x i) := by
  unfold Runs
  rw [eval, eval_var W hi]
  simp [he, evals, Parser.ret, Input.ret, ofResult, -eval, -find]

/-- `string` does the same in all builds. -/
theorem string_build (ne : UInt8 → UInt8 → M σ Bool) (v : Bool) (s : List UInt8) (i : Input UInt8) :
    Closures.string ne v s i = @Closures.string Build.debug _ _ ne v s i := by
  unfold Closures.string
  by_cases h : s.length > i.buf.length
  · have hl : i.buf.length ≤ s.length := by omega
    simp only [if_pos h, usub, if_pos hl]
  · simp only [if_neg h]

theorem string_build' (v : Bool) (s : List UInt8) (i : Input UInt8) :
    (Parsers.string v s i : M σ _) = @Parsers.string Build.debug _ _ _ v s i := by
  unfold Parsers.string
  by_cases h : s.length > i.buf.length
  · have hl : i.buf.length ≤ s.length := by omega
    simp only [if_pos h, usub, if_pos hl]
  · simp only [if_neg h]

theorem apply_std {x : String} (h : Text.find W.verbose "" x = none) (hx : x ≠ "FromIterator::from_iter") (vs : List (Val UInt8 Y)) :
    apply W (.fn x) vs = stdCall W x vs := by
  rw [apply.eq_def]
  simp only [h, hx, if_false]

omit [Build] in
theorem itemsOf_bytes (l : List UInt8) : itemsOf (X := UInt8) (Y := Y) (l.map .item) = some l := by
  induction l with
  | nil => rfl
  | cons a l ih => simp [itemsOf, ih]

theorem evals_bytes (hW : Bytes W) (ns : List Nat) :
    evals W env (ns.map .byte) = pure ((ns.map UInt8.ofNat).map .item) := by
  induction ns with
  | nil => rw [List.map_nil, evals]; rfl
  | cons n ns ih =>
    rw [List.map_cons, evals, ih, eval, hW.byte]
    rfl

/-- `b".."` -/
theorem eval_bytes (hW : Bytes W) (ns : List Nat) (hb : find env "bytes!" = none) :
    eval W env (.call (.path "bytes!") (ns.map .byte)) = pure (.slice (ns.map UInt8.ofNat)) := by
  rw [eval, eval_fn W hb rfl, evals_bytes hW, pure_bind, pure_bind, apply_std (Text.find_no_bytes _) (by decide)]
  simp [stdCall, itemsOf_bytes, -List.map_map]

variable {j : String} (hi : find env j = some (.inl (ofInput i)))
include hi

/-- `string(b"..")` -/
theorem string (hW : Bytes W) (hn : ∀ a b, W.ne a b = pure (a != b)) (ns : List Nat) (hx : find env "string" = none)
    (hb : find env "bytes!" = none) :
    Runs W env (.call (.path "string") [.path j, .call (.path "bytes!") (ns.map .byte)]) .slice
      (Parsers.string W.verbose (ns.map UInt8.ofNat) i) := by
  unfold Runs
  rw [eval_call W (Text.find_string _) hx rfl, evals, evals, evals, eval_var W hi, eval_bytes hW ns hb]
  simp only [pure_bind]
  have h := Closures.string_pure (σ := σ) W.verbose (ns.map UInt8.ofNat)
  rw [show (fun a c => pure (a != c)) = W.ne from funext fun a => funext fun b => (hn a b).symm] at h
  rw [Rust.string, string_build, string_build']
  exact congrArg (fun p : Parser σ UInt8 (List UInt8) (Error UInt8) => toR (do let r ← p i; pure (ofResult .slice ofError r))) h

/-- `f()`, for a function which parses. -/
theorem call {x : String} {p : Parser σ UInt8 T (Error UInt8)} (h : IsParser W (.fn x) t ofError p) (hx : find env x = none)
    (hc : constant (X := UInt8) (Y := Y) x = none) : Runs W env (.call (.path x) [.path j]) t (p i) := by
  unfold Runs
  rw [eval, eval_fn W hx hc, pure_bind, evals, evals, eval_var W hi]
  simp only [pure_bind]
  exact h i

theorem token (hW : Bytes W) (n : Nat) (hx : find env "token" = none) :
    Runs W env (.call (.path "token") [.path j, .byte n]) .item (Parsers.token W.verbose (UInt8.ofNat n) i) := by
  unfold Runs
  rw [eval_call W (Text.find_token _) hx rfl, evals, evals, evals, eval_var W hi, eval]
  simp only [pure_bind]
  rw [Rust.token, hW.byte, show W.eq = fun a b => pure (a == b) from funext fun a => funext (hW.eq a), Closures.token_pure]

theorem take_while1 {f : String} {g : UInt8 → Bool} (h : IsTest W (.fn f) g) (hx : find env "take_while1" = none)
    (hf : find env f = none) (hc : constant (X := UInt8) (Y := Y) f = none) :
    Runs W env (.call (.path "take_while1") [.path j, .path f]) .slice (Parsers.takeWhile1 W.verbose g i) := by
  unfold Runs
  rw [eval_call W (Text.find_take_while1 _) hx rfl, evals, evals, evals, eval_var W hi, eval_fn W hf hc]
  simp only [pure_bind]
  rw [Rust.take_while1 W i _ _ h, Closures.takeWhile1_pure]

theorem take_till {f : String} {g : UInt8 → Bool} (h : IsTest W (.fn f) g) (hcl : ∀ a, W.clone a = pure a)
    (hx : find env "take_till" = none) (hf : find env f = none) (hc : constant (X := UInt8) (Y := Y) f = none) :
    Runs W env (.call (.path "take_till") [.path j, .path f]) .slice (Parsers.takeTill g i) := by
  unfold Runs
  rw [eval_call W (Text.find_take_till _) hx rfl, evals, evals, evals, eval_var W hi, eval_fn W hf hc]
  simp only [pure_bind]
  rw [Rust.take_till W i _ _ h, show W.clone = pure from funext hcl, (Props.C106_copy true (fun _ => pure ()) (fun _ => pure true) _).2.2.2,
    Closures.takeTill_pure]

theorem many {f : String} {p : Parser σ UInt8 U (Error UInt8)} (h : IsParser W (.fn f) u ofError p) (hw : W.collect = vecOf.consumer.machine)
    (hx : find env "many" = none) (hf : find env f = none) (hc : constant (X := UInt8) (Y := Y) f = none) :
    Runs W env (.call (.path "many") [.path j, .path f]) (ofVec u) (Comb.many (Collect.vec U) p i) := by
  unfold Runs
  rw [eval_call W (Text.find_many _) hx rfl, evals, evals, evals, eval_var W hi, eval_fn W hf hc]
  simp only [pure_bind]
  rw [Rust.many W u ofError (.fn f) p (hw ▸ (collectsVec u).machine) h, Consumer.machine_driver, Collect.consumer_driver]
  rfl

theorem many1 {f : String} {p : Parser σ UInt8 U (Error UInt8)} (h : IsParser W (.fn f) u ofError p) (hw : W.collect = vecOf.consumer.machine)
    (hx : find env "many1" = none) (hf : find env f = none) (hc : constant (X := UInt8) (Y := Y) f = none) :
    Runs W env (.call (.path "many1") [.path j, .path f]) (ofVec u) (Comb.many1 (Collect.vec U) p i) := by
  unfold Runs
  rw [eval_call W (Text.find_many1 _) hx rfl, evals, evals, evals, eval_var W hi, eval_fn W hf hc]
  simp only [pure_bind]
  rw [Rust.many1 W u ofError (.fn f) p (hw ▸ (collectsVec u).machine) h, Consumer.machine_driver, Collect.consumer_driver]
  rfl

end Runs

/-! ### Parsers -/

/-- A function `fn f(i: Input<u8>) -> ..` with a body which parses. -/
theorem isParser_fn {x : String} {f : Fn} {t : T → Val UInt8 Y} {p : Parser σ UInt8 T (Error UInt8)} (hf : Text.find W.verbose "" x = some f)
    (hp : f.params = [.bind false "i"]) (h : ∀ i, Runs W [("i", .inl (ofInput i))] f.body t (p i)) :
    IsParser W (.fn x) t ofError p := by
  intro i
  have := h i
  unfold Runs at this
  rw [apply_fn W hf, callFn, hp]
  simp [-eval, this]

/-- A closure with a body which parses. -/
theorem isParser_clo {a : Expr} {env : Env UInt8 Y} {t : T → Val UInt8 Y} {p : Parser σ UInt8 T (Error UInt8)}
    (h : ∀ i, Runs W (("i", .inl (ofInput i)) :: env) a t (p i)) :
    IsParser W (.clo [.bind false "i"] a env) t ofError p := by
  intro i
  have := h i
  unfold Runs at this
  rw [apply]
  simp [-eval, this]

/-- A `Request`, examples/http_parser.rs:22-27. -/
def ofRequest (r : Http.Request) : Val UInt8 Y :=
  .strct "Request" [("method", .slice r.method), ("uri", .slice r.uri), ("version", .slice r.version)]

/-- A `Header`, examples/http_parser.rs:29-33. -/
def ofHeader (h : Http.Header) : Val UInt8 Y :=
  .strct "Header" [("name", .slice h.name), ("value", ofVec .slice h.value)]

/-- A request with its headers. -/
def ofMessage (m : Http.Request × List Http.Header) : Val UInt8 Y := .tuple [ofRequest m.1, ofVec ofHeader m.2]

section
variable (hW : Bytes W)
include hW

theorem http_end_of_line : IsParser W (.fn "http::end_of_line") .item ofError (Http.endOfLine W.verbose) := by
  refine isParser_fn W (Text.find_http_end_of_line _) rfl fun i => ?_
  unfold Runs
  simp only [Text.http_end_of_line]
  rw [eval_call W (Text.find_or _) rfl rfl, evals, evals, evals, evals, eval_var W rfl, eval, eval]
  simp only [pure_bind]
  refine Rust.or W .item ofError _ _ _ _ (isParser_clo W fun i => ?_) (isParser_clo W fun i => ?_) i
  · refine Runs.andThen (Runs.token rfl hW 13 rfl) fun i => ?_
    refine Runs.andThen (Runs.token rfl hW 10 rfl) fun i => ?_
    refine Runs.ret rfl ?_
    rw [eval, hW.byte]
    rfl
  · exact Runs.token rfl hW 10 rfl

theorem http_http_version (hn : ∀ a b, W.ne a b = pure (a != b)) :
    IsParser W (.fn "http::http_version") .slice ofError (Http.httpVersion W.verbose) := by
  refine isParser_fn W (Text.find_http_http_version _) rfl fun i => ?_
  simp only [Text.http_http_version]
  refine Runs.andThen (Runs.string rfl hW hn [72, 84, 84, 80, 47] rfl rfl) fun i => ?_
  exact Runs.take_while1 rfl (http_is_http_version W hW) rfl rfl rfl

end

section
variable {num : Int → Y} (hP : Program W num)
include hP

theorem http_request_line : IsParser W (.fn "http::request_line") ofRequest ofError (Http.requestLine W.verbose) := by
  refine isParser_fn W (Text.find_http_request_line _) rfl fun i => ?_
  simp only [Text.http_request_line]
  refine Runs.bind (Runs.take_while1 rfl (http_is_token W hP.bytes) rfl rfl rfl) fun i m => ?_
  refine Runs.andThen (Runs.take_while1 rfl (http_is_space W hP.bytes) rfl rfl rfl) fun i => ?_
  refine Runs.bind (Runs.take_while1 rfl (http_is_not_space W hP.bytes hP.ne) rfl rfl rfl) fun i u => ?_
  refine Runs.andThen (Runs.take_while1 rfl (http_is_space W hP.bytes) rfl rfl rfl) fun i => ?_
  refine Runs.bind (Runs.call rfl (http_http_version W hP.bytes hP.ne) rfl rfl) fun i v => ?_
  refine Runs.ret rfl ?_
  simp [ofRequest]

theorem http_message_header_line :
    IsParser W (.fn "http::message_header_line") .slice ofError (Http.messageHeaderLine W.verbose) := by
  refine isParser_fn W (Text.find_http_message_header_line _) rfl fun i => ?_
  simp only [Text.http_message_header_line]
  refine Runs.andThen (Runs.take_while1 rfl (http_is_horizontal_space W hP.bytes) rfl rfl rfl) fun i => ?_
  refine Runs.bind (Runs.take_till rfl (http_is_end_of_line W hP.bytes) hP.clone rfl rfl rfl) fun i l => ?_
  refine Runs.andThen (Runs.call rfl (http_end_of_line W hP.bytes) rfl rfl) fun i => ?_
  refine Runs.ret rfl ?_
  simp

theorem http_message_header : IsParser W (.fn "http::message_header") ofHeader ofError (Http.messageHeader W.verbose) := by
  refine isParser_fn W (Text.find_http_message_header _) rfl fun i => ?_
  simp only [Text.http_message_header]
  refine Runs.bind (Runs.take_while1 rfl (http_is_token W hP.bytes) rfl rfl rfl) fun i m => ?_
  refine Runs.andThen (Runs.token rfl hP.bytes 58 rfl) fun i => ?_
  refine Runs.bind (Runs.many1 rfl (http_message_header_line W hP) hP.collect rfl rfl rfl) fun i l => ?_
  refine Runs.ret rfl ?_
  simp [ofHeader]

theorem http_request : IsParser W (.fn "http::request") ofMessage ofError (Http.request W.verbose) := by
  refine isParser_fn W (Text.find_http_request _) rfl fun i => ?_
  simp only [Text.http_request]
  refine Runs.bind (Runs.call rfl (http_request_line W hP) rfl rfl) fun i r => ?_
  refine Runs.andThen (Runs.call rfl (http_end_of_line W hP.bytes) rfl rfl) fun i => ?_
  refine Runs.bind (Runs.many rfl (http_message_header W hP) hP.collect rfl rfl rfl) fun i l => ?_
  refine Runs.andThen (Runs.call rfl (http_end_of_line W hP.bytes) rfl rfl) fun i => ?_
  refine Runs.ret rfl ?_
  simp [ofMessage]

end

end Chomp.Rust
