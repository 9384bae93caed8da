import Verif.Lemmas.Programs
import Verif.Props.Macro

/-
C85: what the example program and the documentation write with `parse!` are the parsers which C63, C70
and C82 are about.
-/

namespace Chomp.Props

open Chomp.Macro Chomp.Programs

variable [Build] (chk v : Bool) (ty : Ascii.IntTy)

omit [Build] in
/-- How fragments are read in the programs is a way which C61 and C62 allow. -/
theorem C85_fragments : runs.Lawful := MacroEx.runs_lawful

/-! ### examples/http_parser.rs -/

/-- `end_of_line` is `or` of this block and of `token(i, b'\n')`. -/
theorem C85_end_of_line : ∃ p : Parser σ UInt8 UInt8 (Error UInt8),
    Is chk v ty Programs.endOfLine (Parser.map p .byte) ∧
      Http.endOfLine v = Comb.or p (Parsers.token v 10) :=
  ⟨_, ⟨Then (Call "token" (.other "b'\\r'")) (Then (Call "token" (.other "b'\\n'"))
    (.ret none [.tok (.other "b'\\r'")])), rfl, run_then (p := Parsers.token v 13) rfl
      (run_then (p := Parsers.token v 10) rfl (q := Parser.ret 13) rfl)⟩, rfl⟩

theorem C85_http_version :
    Is (σ := σ) chk v ty Programs.httpVersion (Parser.map (Http.httpVersion v) .bytes) :=
  ⟨Then (Call "string" (.other "b\"HTTP/\"")) (Call "take_while1" (.ident "is_http_version")), rfl,
    run_then (p := Parsers.string v _) rfl rfl⟩

theorem C85_request_line :
    Is (σ := σ) chk v ty Programs.requestLine (Parser.map (Http.requestLine v) .request) :=
  ⟨Let "method" (Call "take_while1" (.ident "is_token"))
      (Then (Call "take_while1" (.ident "is_space"))
      (Let "uri" (Call "take_while1" (.ident "is_not_space"))
      (Then (Call "take_while1" (.ident "is_space"))
      (Let "version" (.named "http_version" [])
      (.ret none (Programs.requestLine.drop 25)))))), rfl,
    run_let rfl fun _ => run_then (f := .bytes) rfl (run_let rfl fun _ => run_then (f := .bytes) rfl
      (run_let rfl fun _ => rfl))⟩

theorem C85_message_header_line : Is (σ := σ) chk v ty Programs.messageHeaderLine
    (Parser.map (Http.messageHeaderLine v) .bytes) :=
  ⟨Then (Call "take_while1" (.ident "is_horizontal_space"))
      (Let "line" (Call "take_till" (.ident "is_end_of_line"))
      (Then (.named "end_of_line" [])
      (.ret none [.tok (.ident "line")]))), rfl,
    run_then (f := .bytes) rfl (run_let rfl fun _ => run_then (f := .byte) rfl rfl)⟩

theorem C85_message_header :
    Is (σ := σ) chk v ty Programs.messageHeader (Parser.map (Http.messageHeader v) .header) :=
  ⟨Let "name" (Call "take_while1" (.ident "is_token"))
      (Then (Call "token" (.other "b':'"))
      (Let "lines" (Call "many1" (.ident "message_header_line"))
      (.ret none (Programs.messageHeader.drop 16)))), rfl,
    run_let rfl fun _ => run_then (f := .byte) rfl (run_let rfl fun _ => rfl)⟩

theorem C85_request : Is (σ := σ) chk v ty Programs.request
    (Parser.map (Http.request v) fun x => .tuple [.request x.1, .headers x.2]) :=
  ⟨Let "r" (.named "request_line" [])
      (Then (.named "end_of_line" [])
      (Let "h" (Call "many" (.ident "message_header"))
      (Then (.named "end_of_line" [])
      (.ret none (Programs.request.drop 19))))), rfl,
    run_let rfl fun _ => run_then (f := .byte) rfl (run_let rfl fun _ => run_then (f := .byte) rfl rfl)⟩

omit [Build] in
/-- The benchmark has the same grammar, ... -/
theorem C85_bench : benchEndOfLine = Programs.endOfLine ∧ benchHttpVersion = Programs.httpVersion ∧
    benchRequestLine = Programs.requestLine ∧ benchMessageHeaderLine = Programs.messageHeaderLine ∧
    benchMessageHeader = Programs.messageHeader ∧ benchRequest = Programs.request :=
  ⟨rfl, rfl, rfl, rfl, rfl, rfl⟩

/-- ... and a parser for many requests. -/
theorem C85_bench_requests : Is (σ := σ) chk v ty benchRequests
    (Parser.map (Comb.many (Collect.vec _) (Http.request v)) .requests) :=
  ⟨Call "many" (.ident "request"), rfl, rfl⟩

/-! ### The documentation -/

theorem C85_name : Is (σ := σ) chk v ty Programs.name (Parser.map (Docs.name v) .name) :=
  ⟨Let "first" (.named "take_while1" [[.tok .bar, .tok (.ident "c"), .tok .bar, .tok (.ident "c"),
        .tok (.other "!="), .tok (.other "b' '")]])
      (Then (Call "token" (.other "b' '"))
      (Let "last" (.named "take_while1" [[.tok .bar, .tok (.ident "c"), .tok .bar, .tok (.ident "c"),
        .tok (.other "!="), .tok (.other "b'\\n'")]])
      (.ret none (Programs.name.drop 16)))), rfl,
    run_let rfl fun _ => run_then (f := .byte) rfl (run_let rfl fun _ => rfl)⟩

/-- The types given to `ret` do not matter. -/
theorem C85_name_typed : Is (σ := σ) chk v ty nameTyped (Parser.map (Docs.name v) .name) :=
  ⟨Let "first" (.named "take_while1" [[.tok .bar, .tok (.ident "c"), .tok .bar, .tok (.ident "c"),
        .tok (.other "!="), .tok (.other "b' '")]])
      (Then (Call "token" (.other "b' '"))
      (Let "last" (.named "take_while1" [[.tok .bar, .tok (.ident "c"), .tok .bar, .tok (.ident "c"),
        .tok (.other "!="), .tok (.other "b'\\n'")]])
      (.ret (some ([.tok (.other "_")], toks [.ident "Error", .lt, .other "_", .gt]))
        (Programs.name.drop 16)))), rfl,
    run_let rfl fun _ => run_then (f := .byte) rfl (run_let rfl fun _ => rfl)⟩

theorem C85_missiles : Is (σ := σ) chk v ty missiles
    (Parser.map (Docs.f chk v) fun x => .tuple [.byte x.1, .byte x.2.1, .byte x.2.2]) := by
  refine ⟨Let "a" (.named "digit" []) (Let "b" (.named "digit" [])
    (Then (Call "string" (.other "b\"missiles\"")) (.ret none (missiles.drop 16)))), rfl,
    run_let rfl fun a => run_let rfl fun b => run_then (f := .bytes) rfl ?_⟩
  funext i w
  rw [Code.run, show (sem (σ := σ) chk v ty).eval = eval chk from rfl, eval_missiles]
  simp only [Parser.map, M.bind_apply]
  cases Docs.addU8 chk a b w <;> rfl

theorem C85_parse_ip : Is (σ := σ) chk v (Docs.u8 chk) Programs.parseIp (Parser.map (Docs.parseIp chk v)
    fun x => .tuple [.int x.1, .int x.2.1, .int x.2.2.1, .int x.2.2.2]) :=
  ⟨Then (Call "string" (.other "b\"ip:\""))
      (Let "a" (.skip (.named "decimal" []) (Call "token" (.other "b'.'")))
      (Let "b" (.skip (.named "decimal" []) (Call "token" (.other "b'.'")))
      (Let "c" (.skip (.named "decimal" []) (Call "token" (.other "b'.'")))
      (Let "d" (.named "decimal" [])
      (Then (Call "token" (.other "b';'"))
      (.ret none (Programs.parseIp.drop 43))))))), rfl,
    run_then (f := .bytes) rfl
      (run_let (run_skip (p := Ascii.decimal v (Docs.u8 chk).num) (h := .byte) rfl rfl) fun _ =>
      run_let (run_skip (p := Ascii.decimal v (Docs.u8 chk).num) (h := .byte) rfl rfl) fun _ =>
      run_let (run_skip (p := Ascii.decimal v (Docs.u8 chk).num) (h := .byte) rfl rfl) fun _ =>
      run_let rfl fun _ => run_then (f := .byte) rfl rfl)⟩

theorem C85_log_severity :
    Is (σ := σ) chk v ty Programs.logSeverity (Parser.map (Docs.logSeverity v) .log) :=
  ⟨.or (.named "level" [[.tok (.other "b\"ERROR\"")], toks [.ident "Log", .other "::", .ident "Error"]])
      (.or (.named "level" [[.tok (.other "b\"WARN\"")], toks [.ident "Log", .other "::", .ident "Warning"]])
      (.or (.named "level" [[.tok (.other "b\"INFO\"")], toks [.ident "Log", .other "::", .ident "Info"]])
      (.named "level" [[.tok (.other "b\"DEBUG\"")], toks [.ident "Log", .other "::", .ident "Debug"]]))), rfl,
    run_or rfl (run_or rfl (run_or rfl rfl))⟩

/-- The parser at src/macros.rs:148: `:` and a number, which is doubled. -/
theorem C85_double : Is (σ := σ) chk v (u32 chk) double
    (Parser.map (Parser.andThen id (Parsers.token v 58) <|
        Parser.bind id (Ascii.decimal v (u32 chk).num) fun n => fun i => do
          let m ← M.lift ((u32 chk).num.mul n 2)
          pure (i.ret m))
      .int) := by
  refine ⟨Then (Call "token" (.other "b':'")) (.bind (.typed "n" [.tok (.ident "u32")])
    (.named "decimal" []) (.ret none (toks [.ident "n", .star, .other "2"]))), rfl,
    run_then (f := .byte) rfl (run_typed rfl fun n => ?_)⟩
  funext i w
  show ((eval chk [("n", .int n)] (toks [.ident "n", .star, .other "2"]) : M _ Val) >>= fun x =>
    pure (i.ret x)) w = _
  rw [show (eval chk [("n", .int n)] (toks [.ident "n", .star, .other "2"]) : M _ Val) = (do
    let m ← M.lift ((u32 chk).num.mul n 2)
    pure (.int m)) from rfl]
  simp only [Parser.map, M.bind_apply]
  cases M.lift ((u32 chk).num.mul n 2) w <;> rfl

/-- The parser at src/parse.rs:39. -/
theorem C85_my_parser : Is (σ := σ) chk v ty myParser
    (Parser.map (Parser.bind id (Parsers.string v [112, 97, 116, 116, 101, 114, 110]) fun r =>
        Parser.andThen id (Parsers.eof v) (Parser.ret r))
      .bytes) :=
  ⟨Let "r" (Call "string" (.other "b\"pattern\"")) (Then (.named "eof" []) (.ret none [.tok (.ident "r")])), rfl,
    run_let rfl fun _ => run_then (f := fun _ => .tuple []) rfl rfl⟩

/-- The parsers in README.md are those of the documentation, with a `;` in the end of one. -/
theorem C85_readme : readmeName = Programs.name ∧ Is (σ := σ) chk v ty readmeMissiles
    (Parser.map (Docs.f chk v) fun x => .tuple [.byte x.1, .byte x.2.1, .byte x.2.2]) := by
  refine ⟨rfl, Let "a" (.named "read_digit" []) (Let "b" (.named "read_digit" [])
    (Then (Call "string" (.other "b\"missiles\"")) (.ret none (missiles.drop 16)))), rfl,
    run_let rfl fun a => run_let rfl fun b => run_then (f := .bytes) rfl ?_⟩
  funext i w
  rw [Code.run, show (sem (σ := σ) chk v ty).eval = eval chk from rfl, eval_missiles]
  simp only [Parser.map, M.bind_apply]
  cases Docs.addU8 chk a b w <;> rfl

/-! ### Examples -/

namespace ProgramsEx

/-- `12missiles`, run through the macro. -/
example : ∃ c, expand tables runs 64 (.block missiles) = some c ∧
    c.run (σ := Unit) (sem true v ty) [] ⟨.default, [49, 50, 109, 105, 115, 115, 105, 108, 101, 115, 33]⟩ () =
      .ok (.data ⟨.default, [33]⟩ (.tuple [.byte 1, .byte 2, .byte 3]), ()) := by
  obtain ⟨c, h1, h2⟩ := C85_missiles (σ := Unit) true v ty
  refine ⟨c, h1, ?_⟩
  rw [h2]
  cases v <;> rfl

/-- `Parser.map` with a constructor loses nothing: the parser can be told from the program. -/
example (p q : Parser σ I T E) (h : Parser.map p some = Parser.map q some) : p = q := by
  funext i w
  have := congrFun (congrFun h i) w
  simp only [Parser.map, M.bind_apply] at this
  cases hp : p i w with
  | ok x =>
    obtain ⟨r, w1⟩ := x
    cases hq : q i w with
    | ok y =>
      obtain ⟨s, w2⟩ := y
      rw [hp, hq] at this
      cases r <;> cases s <;> first | (cases this; rfl) | cases this
    | _ => rw [hp, hq] at this; cases r <;> cases this
  | _ =>
    cases hq : q i w with
    | ok y => obtain ⟨s, w2⟩ := y; rw [hp, hq] at this; cases s <;> cases this
    | _ => first | rfl | (rw [hp, hq] at this; cases this)

/-- The longest block takes 25 nested invocations, so the limit of 64 is far away. -/
example : (expand tables runs 25 (.block Programs.parseIp)).isSome = true ∧
    (expand tables runs 24 (.block Programs.parseIp)).isSome = false := ⟨rfl, rfl⟩

end ProgramsEx

end Chomp.Props
