import Verif.Model.Macro

/-
The blocks of the `parse!` and `parser!` invocations in the example program, in the benchmark and in the
documentation, as token trees. Written by tools/programs.py.
-/

namespace Chomp.Programs

open Chomp.Macro

/-- The first alternative of `end_of_line`, examples/http_parser.rs:68-71. -/
def endOfLine : List TT :=
  [.tok (.ident "token"), .group .paren [.tok (.other "b'\\r'")], .tok .semi, .tok (.ident "token"),
    .group .paren [.tok (.other "b'\\n'")], .tok .semi, .tok (.ident "ret"), .tok (.other "b'\\r'")]

/-- `http_version`, examples/http_parser.rs:76-79. -/
def httpVersion : List TT :=
  [.tok (.ident "string"), .group .paren [.tok (.other "b\"HTTP/\"")], .tok .semi,
    .tok (.ident "take_while1"), .group .paren [.tok (.ident "is_http_version")]]

/-- `request_line`, examples/http_parser.rs:83-95. -/
def requestLine : List TT :=
  [.tok .kwLet, .tok (.ident "method"), .tok .eq, .tok (.ident "take_while1"),
    .group .paren [.tok (.ident "is_token")], .tok .semi, .tok (.ident "take_while1"),
    .group .paren [.tok (.ident "is_space")], .tok .semi, .tok .kwLet, .tok (.ident "uri"), .tok .eq,
    .tok (.ident "take_while1"), .group .paren [.tok (.ident "is_not_space")], .tok .semi,
    .tok (.ident "take_while1"), .group .paren [.tok (.ident "is_space")], .tok .semi, .tok .kwLet,
    .tok (.ident "version"), .tok .eq, .tok (.ident "http_version"), .group .paren [], .tok .semi,
    .tok (.ident "ret"), .tok (.ident "Request"),
    .group .brace [.tok (.ident "method"), .tok .colon, .tok (.ident "method"), .tok .comma, .tok (.ident "uri"), .tok .colon, .tok (.ident "uri"), .tok .comma, .tok (.ident "version"), .tok .colon, .tok (.ident "version"), .tok .comma]]

/-- `message_header_line`, examples/http_parser.rs:99-105. -/
def messageHeaderLine : List TT :=
  [.tok (.ident "take_while1"), .group .paren [.tok (.ident "is_horizontal_space")], .tok .semi,
    .tok .kwLet, .tok (.ident "line"), .tok .eq, .tok (.ident "take_till"),
    .group .paren [.tok (.ident "is_end_of_line")], .tok .semi, .tok (.ident "end_of_line"),
    .group .paren [], .tok .semi, .tok (.ident "ret"), .tok (.ident "line")]

/-- `message_header`, examples/http_parser.rs:109-118. -/
def messageHeader : List TT :=
  [.tok .kwLet, .tok (.ident "name"), .tok .eq, .tok (.ident "take_while1"),
    .group .paren [.tok (.ident "is_token")], .tok .semi, .tok (.ident "token"),
    .group .paren [.tok (.other "b':'")], .tok .semi, .tok .kwLet, .tok (.ident "lines"), .tok .eq,
    .tok (.ident "many1"), .group .paren [.tok (.ident "message_header_line")], .tok .semi,
    .tok (.ident "ret"), .tok (.ident "Header"),
    .group .brace [.tok (.ident "name"), .tok .colon, .tok (.ident "name"), .tok .comma, .tok (.ident "value"), .tok .colon, .tok (.ident "lines"), .tok .comma]]

/-- `request`, examples/http_parser.rs:122-129. -/
def request : List TT :=
  [.tok .kwLet, .tok (.ident "r"), .tok .eq, .tok (.ident "request_line"), .group .paren [], .tok .semi,
    .tok (.ident "end_of_line"), .group .paren [], .tok .semi, .tok .kwLet, .tok (.ident "h"), .tok .eq,
    .tok (.ident "many"), .group .paren [.tok (.ident "message_header")], .tok .semi,
    .tok (.ident "end_of_line"), .group .paren [], .tok .semi, .tok (.ident "ret"),
    .group .paren [.tok (.ident "r"), .tok .comma, .tok (.ident "h")]]

/-- The first alternative of `end_of_line`, benches/http_bench.rs:56-59. -/
def benchEndOfLine : List TT :=
  [.tok (.ident "token"), .group .paren [.tok (.other "b'\\r'")], .tok .semi, .tok (.ident "token"),
    .group .paren [.tok (.other "b'\\n'")], .tok .semi, .tok (.ident "ret"), .tok (.other "b'\\r'")]

/-- `http_version`, benches/http_bench.rs:64-67. -/
def benchHttpVersion : List TT :=
  [.tok (.ident "string"), .group .paren [.tok (.other "b\"HTTP/\"")], .tok .semi,
    .tok (.ident "take_while1"), .group .paren [.tok (.ident "is_http_version")]]

/-- `request_line`, benches/http_bench.rs:71-83. -/
def benchRequestLine : List TT :=
  [.tok .kwLet, .tok (.ident "method"), .tok .eq, .tok (.ident "take_while1"),
    .group .paren [.tok (.ident "is_token")], .tok .semi, .tok (.ident "take_while1"),
    .group .paren [.tok (.ident "is_space")], .tok .semi, .tok .kwLet, .tok (.ident "uri"), .tok .eq,
    .tok (.ident "take_while1"), .group .paren [.tok (.ident "is_not_space")], .tok .semi,
    .tok (.ident "take_while1"), .group .paren [.tok (.ident "is_space")], .tok .semi, .tok .kwLet,
    .tok (.ident "version"), .tok .eq, .tok (.ident "http_version"), .group .paren [], .tok .semi,
    .tok (.ident "ret"), .tok (.ident "Request"),
    .group .brace [.tok (.ident "method"), .tok .colon, .tok (.ident "method"), .tok .comma, .tok (.ident "uri"), .tok .colon, .tok (.ident "uri"), .tok .comma, .tok (.ident "version"), .tok .colon, .tok (.ident "version"), .tok .comma]]

/-- `message_header_line`, benches/http_bench.rs:87-93. -/
def benchMessageHeaderLine : List TT :=
  [.tok (.ident "take_while1"), .group .paren [.tok (.ident "is_horizontal_space")], .tok .semi,
    .tok .kwLet, .tok (.ident "line"), .tok .eq, .tok (.ident "take_till"),
    .group .paren [.tok (.ident "is_end_of_line")], .tok .semi, .tok (.ident "end_of_line"),
    .group .paren [], .tok .semi, .tok (.ident "ret"), .tok (.ident "line")]

/-- `message_header`, benches/http_bench.rs:97-106. -/
def benchMessageHeader : List TT :=
  [.tok .kwLet, .tok (.ident "name"), .tok .eq, .tok (.ident "take_while1"),
    .group .paren [.tok (.ident "is_token")], .tok .semi, .tok (.ident "token"),
    .group .paren [.tok (.other "b':'")], .tok .semi, .tok .kwLet, .tok (.ident "lines"), .tok .eq,
    .tok (.ident "many1"), .group .paren [.tok (.ident "message_header_line")], .tok .semi,
    .tok (.ident "ret"), .tok (.ident "Header"),
    .group .brace [.tok (.ident "name"), .tok .colon, .tok (.ident "name"), .tok .comma, .tok (.ident "value"), .tok .colon, .tok (.ident "lines"), .tok .comma]]

/-- `request`, benches/http_bench.rs:110-117. -/
def benchRequest : List TT :=
  [.tok .kwLet, .tok (.ident "r"), .tok .eq, .tok (.ident "request_line"), .group .paren [], .tok .semi,
    .tok (.ident "end_of_line"), .group .paren [], .tok .semi, .tok .kwLet, .tok (.ident "h"), .tok .eq,
    .tok (.ident "many"), .group .paren [.tok (.ident "message_header")], .tok .semi,
    .tok (.ident "end_of_line"), .group .paren [], .tok .semi, .tok (.ident "ret"),
    .group .paren [.tok (.ident "r"), .tok .comma, .tok (.ident "h")]]

/-- The parser of `multiple_requests`, benches/http_bench.rs:173. -/
def benchRequests : List TT :=
  [.tok (.ident "many"), .group .paren [.tok (.ident "request")]]

/-- `name`, src/lib.rs:28-37. -/
def name : List TT :=
  [.tok .kwLet, .tok (.ident "first"), .tok .eq, .tok (.ident "take_while1"),
    .group .paren [.tok .bar, .tok (.ident "c"), .tok .bar, .tok (.ident "c"), .tok (.other "!="), .tok (.other "b' '")],
    .tok .semi, .tok (.ident "token"), .group .paren [.tok (.other "b' '")], .tok .semi, .tok .kwLet,
    .tok (.ident "last"), .tok .eq, .tok (.ident "take_while1"),
    .group .paren [.tok .bar, .tok (.ident "c"), .tok .bar, .tok (.ident "c"), .tok (.other "!="), .tok (.other "b'\\n'")],
    .tok .semi, .tok (.ident "ret"), .tok (.ident "Name"),
    .group .brace [.tok (.ident "first"), .tok .colon, .tok (.ident "first"), .tok .comma, .tok (.ident "last"), .tok .colon, .tok (.ident "last"), .tok .comma]]

/-- `f`, src/lib.rs:148-153. -/
def missiles : List TT :=
  [.tok .kwLet, .tok (.ident "a"), .tok .eq, .tok (.ident "digit"), .group .paren [], .tok .semi,
    .tok .kwLet, .tok (.ident "b"), .tok .eq, .tok (.ident "digit"), .group .paren [], .tok .semi,
    .tok (.ident "string"), .group .paren [.tok (.other "b\"missiles\"")], .tok .semi, .tok (.ident "ret"),
    .group .paren [.tok (.ident "a"), .tok .comma, .tok (.ident "b"), .tok .comma, .tok (.ident "a"), .tok (.other "+"), .tok (.ident "b")]]

/-- `r`, src/macros.rs:32-41. -/
def nameTyped : List TT :=
  [.tok .kwLet, .tok (.ident "first"), .tok .eq, .tok (.ident "take_while1"),
    .group .paren [.tok .bar, .tok (.ident "c"), .tok .bar, .tok (.ident "c"), .tok (.other "!="), .tok (.other "b' '")],
    .tok .semi, .tok (.ident "token"), .group .paren [.tok (.other "b' '")], .tok .semi, .tok .kwLet,
    .tok (.ident "last"), .tok .eq, .tok (.ident "take_while1"),
    .group .paren [.tok .bar, .tok (.ident "c"), .tok .bar, .tok (.ident "c"), .tok (.other "!="), .tok (.other "b'\\n'")],
    .tok .semi, .tok (.ident "ret"), .tok .at, .tok (.other "_"), .tok .comma, .tok (.ident "Error"),
    .tok .lt, .tok (.other "_"), .tok .gt, .tok .colon, .tok (.ident "Name"),
    .group .brace [.tok (.ident "first"), .tok .colon, .tok (.ident "first"), .tok .comma, .tok (.ident "last"), .tok .colon, .tok (.ident "last"), .tok .comma]]

/-- `parse_ip`, src/macros.rs:60-68. -/
def parseIp : List TT :=
  [.tok (.ident "string"), .group .paren [.tok (.other "b\"ip:\"")], .tok .semi, .tok .kwLet,
    .tok (.ident "a"), .tok .eq, .tok (.ident "decimal"), .group .paren [], .tok .lt, .tok .star,
    .tok (.ident "token"), .group .paren [.tok (.other "b'.'")], .tok .semi, .tok .kwLet, .tok (.ident "b"),
    .tok .eq, .tok (.ident "decimal"), .group .paren [], .tok .lt, .tok .star, .tok (.ident "token"),
    .group .paren [.tok (.other "b'.'")], .tok .semi, .tok .kwLet, .tok (.ident "c"), .tok .eq,
    .tok (.ident "decimal"), .group .paren [], .tok .lt, .tok .star, .tok (.ident "token"),
    .group .paren [.tok (.other "b'.'")], .tok .semi, .tok .kwLet, .tok (.ident "d"), .tok .eq,
    .tok (.ident "decimal"), .group .paren [], .tok .semi, .tok (.ident "token"),
    .group .paren [.tok (.other "b';'")], .tok .semi, .tok (.ident "ret"),
    .group .paren [.tok (.ident "a"), .tok .comma, .tok (.ident "b"), .tok .comma, .tok (.ident "c"), .tok .comma, .tok (.ident "d")]]

/-- `log_severity`, src/macros.rs:91-96. -/
def logSeverity : List TT :=
  [.tok (.ident "level"),
    .group .paren [.tok (.other "b\"ERROR\""), .tok .comma, .tok (.ident "Log"), .tok (.other "::"), .tok (.ident "Error")],
    .tok .lt, .tok .bar, .tok .gt, .tok (.ident "level"),
    .group .paren [.tok (.other "b\"WARN\""), .tok .comma, .tok (.ident "Log"), .tok (.other "::"), .tok (.ident "Warning")],
    .tok .lt, .tok .bar, .tok .gt, .tok (.ident "level"),
    .group .paren [.tok (.other "b\"INFO\""), .tok .comma, .tok (.ident "Log"), .tok (.other "::"), .tok (.ident "Info")],
    .tok .lt, .tok .bar, .tok .gt, .tok (.ident "level"),
    .group .paren [.tok (.other "b\"DEBUG\""), .tok .comma, .tok (.ident "Log"), .tok (.other "::"), .tok (.ident "Debug")]]

/-- `my_parser`, src/macros.rs:148-152. -/
def double : List TT :=
  [.tok (.ident "token"), .group .paren [.tok (.other "b':'")], .tok .semi, .tok .kwLet, .tok (.ident "n"),
    .tok .colon, .tok (.ident "u32"), .tok .eq, .tok (.ident "decimal"), .group .paren [], .tok .semi,
    .tok (.ident "ret"), .tok (.ident "n"), .tok .star, .tok (.other "2")]

/-- `my_parser`, src/parse.rs:39-44. -/
def myParser : List TT :=
  [.tok .kwLet, .tok (.ident "r"), .tok .eq, .tok (.ident "string"),
    .group .paren [.tok (.other "b\"pattern\"")], .tok .semi, .tok (.ident "eof"), .group .paren [],
    .tok .semi, .tok (.ident "ret"), .tok (.ident "r")]

/-- `f`, README.md:50-55. -/
def readmeMissiles : List TT :=
  [.tok .kwLet, .tok (.ident "a"), .tok .eq, .tok (.ident "read_digit"), .group .paren [], .tok .semi,
    .tok .kwLet, .tok (.ident "b"), .tok .eq, .tok (.ident "read_digit"), .group .paren [], .tok .semi,
    .tok (.ident "string"), .group .paren [.tok (.other "b\"missiles\"")], .tok .semi, .tok (.ident "ret"),
    .group .paren [.tok (.ident "a"), .tok .comma, .tok (.ident "b"), .tok .comma, .tok (.ident "a"), .tok (.other "+"), .tok (.ident "b")],
    .tok .semi]

/-- `name`, README.md:93-102. -/
def readmeName : List TT :=
  [.tok .kwLet, .tok (.ident "first"), .tok .eq, .tok (.ident "take_while1"),
    .group .paren [.tok .bar, .tok (.ident "c"), .tok .bar, .tok (.ident "c"), .tok (.other "!="), .tok (.other "b' '")],
    .tok .semi, .tok (.ident "token"), .group .paren [.tok (.other "b' '")], .tok .semi, .tok .kwLet,
    .tok (.ident "last"), .tok .eq, .tok (.ident "take_while1"),
    .group .paren [.tok .bar, .tok (.ident "c"), .tok .bar, .tok (.ident "c"), .tok (.other "!="), .tok (.other "b'\\n'")],
    .tok .semi, .tok (.ident "ret"), .tok (.ident "Name"),
    .group .brace [.tok (.ident "first"), .tok .colon, .tok (.ident "first"), .tok .comma, .tok (.ident "last"), .tok .colon, .tok (.ident "last"), .tok .comma]]

end Chomp.Programs
