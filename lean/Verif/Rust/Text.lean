import Verif.Rust.Syntax

/-
Written by tools/rust.py from the text of /repo. Do not edit.
-/

namespace Chomp.Rust.Text

/-- `input::new`, src/input.rs:85-87. -/
def input_new : Fn where
  params := [.bind false "state", .bind false "buffer"]
  body :=
    .con "Input" [.path "state", .path "buffer"]

/-- `Input::new`, src/input.rs:103-105. -/
def Input_new : Fn where
  params := [.bind false "b"]
  body :=
    .con "Input" [.path "END_OF_INPUT", .path "b"]

/-- `Input::ret`, src/input.rs:124-126. -/
def Input_ret : Fn where
  params := [.bind false "self", .bind false "t"]
  body :=
    .call (.path "parse_result::new") [.con "State::Data" [.path "self", .path "t"]]

/-- `Input::err`, src/input.rs:145-147. -/
def Input_err : Fn where
  params := [.bind false "self", .bind false "e"]
  body :=
    .call (.path "parse_result::new") [.con "State::Error" [.field (.path "self") "1", .path "e"]]

/-- `Input::incomplete`, src/input.rs:156-158. -/
def Input_incomplete : Fn where
  params := [.bind false "self", .bind false "n"]
  body :=
    .call (.path "parse_result::new") [.con "State::Incomplete" [.path "n"]]

/-- `Input::from_result`, src/input.rs:181-186. -/
def Input_from_result : Fn where
  params := [.bind false "self", .bind false "r"]
  body :=
    .mtch (.path "r") [.mk (.con "Ok" [.bind false "t"]) (.bool true) (.call (.path "parse_result::new") [.con
      "State::Data" [.path "self", .path "t"]]), .mk (.con "Err" [.bind false "e"]) (.bool true) (.call (.path
      "parse_result::new") [.con "State::Error" [.field (.path "self") "1", .path "e"]])]

/-- `Input::clone`, src/input.rs:206-208. -/
def Input_clone : Fn where
  params := [.bind false "self"]
  body :=
    .con "Input" [.field (.path "self") "0", .field (.path "self") "1"]

/-- `Input::buffer`, src/input.rs:251-253. -/
def Input_buffer : Fn where
  params := [.bind false "self"]
  body :=
    .field (.path "self") "1"

/-- `Input::replace`, src/input.rs:256-258. -/
def Input_replace : Fn where
  params := [.bind false "self", .bind false "b"]
  body :=
    .con "Input" [.field (.path "self") "0", .path "b"]

/-- `Input::is_last_slice`, src/input.rs:261-263. -/
def Input_is_last_slice : Fn where
  params := [.bind false "self"]
  body :=
    .method (.field (.path "self") "0") "contains" [.path "END_OF_INPUT"]

/-- `parse_result::new`, src/parse_result.rs:94-96. -/
def parse_result_new : Fn where
  params := [.bind false "s"]
  body :=
    .con "ParseResult" [.path "s"]

/-- `ParseResult::bind`, src/parse_result.rs:142-150. -/
def ParseResult_bind : Fn where
  params := [.bind false "self", .bind false "f"]
  body :=
    .mtch (.field (.path "self") "0") [.mk (.con "State::Data" [.bind false "i", .bind false "t"]) (.bool true)
      (.method (.call (.path "f") [.path "i", .path "t"]) "map_err" [.path "<V as From<V>>::from"]), .mk (.con
      "State::Error" [.bind false "i", .bind false "e"]) (.bool true) (.con "ParseResult" [.con "State::Error"
      [.path "i", .call (.path "<V as From<E>>::from") [.path "e"]]]), .mk (.con "State::Incomplete" [.bind
      false "n"]) (.bool true) (.con "ParseResult" [.con "State::Incomplete" [.path "n"]])]

/-- `ParseResult::then`, src/parse_result.rs:179-183. -/
def ParseResult_then : Fn where
  params := [.bind false "self", .bind false "f"]
  body :=
    .method (.path "self") "bind" [.closure [.bind false "i", .wild] (.call (.path "f") [.path "i"])]

/-- `ParseResult::map`, src/parse_result.rs:197-204. -/
def ParseResult_map : Fn where
  params := [.bind false "self", .bind false "f"]
  body :=
    .mtch (.field (.path "self") "0") [.mk (.con "State::Data" [.bind false "i", .bind false "t"]) (.bool true)
      (.con "ParseResult" [.con "State::Data" [.path "i", .call (.path "f") [.path "t"]]]), .mk (.con
      "State::Error" [.bind false "i", .bind false "e"]) (.bool true) (.con "ParseResult" [.con "State::Error"
      [.path "i", .path "e"]]), .mk (.con "State::Incomplete" [.bind false "n"]) (.bool true) (.con
      "ParseResult" [.con "State::Incomplete" [.path "n"]])]

/-- `ParseResult::map_err`, src/parse_result.rs:220-227. -/
def ParseResult_map_err : Fn where
  params := [.bind false "self", .bind false "f"]
  body :=
    .mtch (.field (.path "self") "0") [.mk (.con "State::Data" [.bind false "i", .bind false "t"]) (.bool true)
      (.con "ParseResult" [.con "State::Data" [.path "i", .path "t"]]), .mk (.con "State::Error" [.bind false
      "i", .bind false "e"]) (.bool true) (.con "ParseResult" [.con "State::Error" [.path "i", .call (.path "f")
      [.path "e"]]]), .mk (.con "State::Incomplete" [.bind false "n"]) (.bool true) (.con "ParseResult" [.con
      "State::Incomplete" [.path "n"]])]

/-- `ParseResult::inspect`, src/parse_result.rs:244-251. -/
def ParseResult_inspect : Fn where
  params := [.bind false "self", .bind false "f"]
  body :=
    .seq (.mtch (.field (.path "self") "0") [.mk (.con "State::Data" [.wild, .bind false "t"]) (.bool true)
      (.call (.path "f") [.path "t"]), .mk .wild (.bool true) (.tuple [])]) (.path "self")

/-- `ParseResult::unwrap`, src/parse_result.rs:295-303. -/
def ParseResult_unwrap : Fn where
  params := [.bind false "self"]
  body :=
    .mtch (.field (.path "self") "0") [.mk (.con "State::Data" [.wild, .bind false "t"]) (.bool true) (.path
      "t"), .mk (.con "State::Error" [.wild, .bind false "e"]) (.bool true) .panic, .mk (.con
      "State::Incomplete" [.bind false "n"]) (.bool true) .panic]

/-- `ParseResult::expect`, src/parse_result.rs:328-334. -/
def ParseResult_expect : Fn where
  params := [.bind false "self", .bind false "msg"]
  body :=
    .mtch (.field (.path "self") "0") [.mk (.con "State::Data" [.wild, .bind false "t"]) (.bool true) (.path
      "t"), .mk (.con "State::Error" [.wild, .bind false "e"]) (.bool true) .panic, .mk (.con
      "State::Incomplete" [.wild]) (.bool true) .panic]

/-- `ParseResult::unwrap_err`, src/parse_result.rs:372-382. -/
def ParseResult_unwrap_err : Fn where
  params := [.bind false "self"]
  body :=
    .mtch (.field (.path "self") "0") [.mk (.con "State::Data" [.wild, .bind false "t"]) (.bool true) .panic,
      .mk (.con "State::Error" [.wild, .bind false "e"]) (.bool true) (.path "e"), .mk (.con "State::Incomplete"
      [.bind false "n"]) (.bool true) .panic]

/-- `ParseResult::into_inner`, src/parse_result.rs:427-429. -/
def ParseResult_into_inner : Fn where
  params := [.bind false "self"]
  body :=
    .field (.path "self") "0"

/-- `parse_only`, src/parse.rs:52-61. -/
def parse_only : Fn where
  params := [.bind false "parser", .bind false "input"]
  body :=
    .mtch (.method (.call (.path "parser") [.call (.path "input::new") [.path "input::END_OF_INPUT", .path
      "input"]]) "into_inner" []) [.mk (.con "State::Data" [.wild, .bind false "t"]) (.bool true) (.con "Ok"
      [.path "t"]), .mk (.con "State::Error" [.bind false "b", .bind false "e"]) (.bool true) (.con "Err" [.con
      "ParseError::Error" [.path "b", .path "e"]]), .mk (.con "State::Incomplete" [.bind false "n"]) (.bool
      true) (.con "Err" [.con "ParseError::Incomplete" [.path "n"]])]

/-- `any`, src/parsers.rs:25-32. -/
def any : Fn where
  params := [.bind false "i"]
  body :=
    .letIn (.bind false "b") (.method (.path "i") "buffer" []) (.mtch (.method (.path "b") "first" []) [.mk
      (.con "None" []) (.bool true) (.method (.path "i") "incomplete" [.num 1]), .mk (.con "Some" [.bind false
      "c"]) (.bool true) (.method (.method (.path "i") "replace" [.ref (.index (.path "b") (.con "RangeFrom"
      [.num 1]))]) "ret" [.path "c"])])

/-- `satisfy`, src/parsers.rs:45-54. -/
def satisfy : Fn where
  params := [.bind false "i", .bind false "f"]
  body :=
    .letIn (.bind false "b") (.method (.path "i") "buffer" []) (.mtch (.method (.path "b") "first" []) [.mk
      (.con "None" []) (.bool true) (.method (.path "i") "incomplete" [.num 1]), .mk (.con "Some" [.bind false
      "c"]) (.call (.path "f") [.path "c"]) (.method (.method (.path "i") "replace" [.ref (.index (.path "b")
      (.con "RangeFrom" [.num 1]))]) "ret" [.path "c"]), .mk (.con "Some" [.wild]) (.bool true) (.method (.path
      "i") "err" [.call (.path "err::unexpected") []])])

/-- `satisfy_with`, src/parsers.rs:71-88. -/
def satisfy_with : Fn where
  params := [.bind false "i", .bind false "f", .bind false "p"]
  body :=
    .letIn (.bind false "b") (.method (.path "i") "buffer" []) (.mtch (.method (.method (.path "b") "first" [])
      "cloned" []) [.mk (.con "Some" [.bind false "n"]) (.bool true) (.letIn (.bind false "t") (.call (.path
      "f") [.path "n"]) (.ite (.call (.path "p") [.method (.path "t") "clone" []]) (.method (.method (.path "i")
      "replace" [.ref (.index (.path "b") (.con "RangeFrom" [.num 1]))]) "ret" [.path "t"]) (.method (.path "i")
      "err" [.call (.path "err::unexpected") []]))), .mk (.con "None" []) (.bool true) (.method (.path "i")
      "incomplete" [.num 1])])

/-- `token`, src/parsers.rs:100-108. -/
def token : Fn where
  params := [.bind false "i", .bind false "t"]
  body :=
    .letIn (.bind false "b") (.method (.path "i") "buffer" []) (.mtch (.method (.path "b") "first" []) [.mk
      (.con "None" []) (.bool true) (.method (.path "i") "incomplete" [.num 1]), .mk (.con "Some" [.bind false
      "c"]) (.bin .eq (.path "t") (.path "c")) (.method (.method (.path "i") "replace" [.ref (.index (.path "b")
      (.con "RangeFrom" [.num 1]))]) "ret" [.path "c"]), .mk (.con "Some" [.wild]) (.bool true) (.method (.path
      "i") "err" [.call (.path "err::expected") [.path "t"]])])

/-- `not_token`, src/parsers.rs:120-128. -/
def not_token : Fn where
  params := [.bind false "i", .bind false "t"]
  body :=
    .letIn (.bind false "b") (.method (.path "i") "buffer" []) (.mtch (.method (.path "b") "first" []) [.mk
      (.con "None" []) (.bool true) (.method (.path "i") "incomplete" [.num 1]), .mk (.con "Some" [.bind false
      "c"]) (.bin .ne (.path "t") (.path "c")) (.method (.method (.path "i") "replace" [.ref (.index (.path "b")
      (.con "RangeFrom" [.num 1]))]) "ret" [.path "c"]), .mk (.con "Some" [.wild]) (.bool true) (.method (.path
      "i") "err" [.call (.path "err::unexpected") []])])

/-- `peek`, src/parsers.rs:143-147. -/
def peek : Fn where
  params := [.bind false "i"]
  body :=
    .letIn (.bind false "d") (.method (.method (.method (.path "i") "buffer" []) "first" []) "cloned" [])
      (.method (.path "i") "ret" [.path "d"])

/-- `peek_next`, src/parsers.rs:159-164. -/
def peek_next : Fn where
  params := [.bind false "i"]
  body :=
    .mtch (.method (.method (.method (.path "i") "buffer" []) "first" []) "cloned" []) [.mk (.con "None" [])
      (.bool true) (.method (.path "i") "incomplete" [.num 1]), .mk (.con "Some" [.bind false "c"]) (.bool true)
      (.method (.path "i") "ret" [.path "c"])]

/-- `take`, src/parsers.rs:176-184. -/
def take : Fn where
  params := [.bind false "i", .bind false "num"]
  body :=
    .letIn (.bind false "b") (.method (.path "i") "buffer" []) (.ite (.bin .le (.path "num") (.method (.path
      "b") "len" [])) (.method (.method (.path "i") "replace" [.ref (.index (.path "b") (.con "RangeFrom" [.path
      "num"]))]) "ret" [.ref (.index (.path "b") (.con "RangeTo" [.path "num"]))]) (.method (.path "i")
      "incomplete" [.bin .sub (.path "num") (.method (.path "b") "len" [])]))

/-- `take_while`, src/parsers.rs:209-226. -/
def take_while : Fn where
  params := [.bind false "i", .bind false "f"]
  body :=
    .letIn (.bind false "b") (.method (.path "i") "buffer" []) (.mtch (.method (.method (.path "b") "iter" [])
      "position" [.closure [.bind false "c"] (.bin .eq (.call (.path "f") [.deref (.path "c")]) (.bool false))])
      [.mk (.con "Some" [.bind false "n"]) (.bool true) (.method (.method (.path "i") "replace" [.ref (.index
      (.path "b") (.con "RangeFrom" [.path "n"]))]) "ret" [.ref (.index (.path "b") (.con "RangeTo" [.path
      "n"]))]), .mk (.con "None" []) (.bool true) (.ite (.method (.path "i") "is_last_slice" []) (.method
      (.method (.path "i") "replace" [.ref (.index (.path "b") (.con "RangeTo" [.num 0]))]) "ret" [.path "b"])
      (.method (.path "i") "incomplete" [.num 1]))])

/-- `take_while1`, src/parsers.rs:242-260. -/
def take_while1 : Fn where
  params := [.bind false "i", .bind false "f"]
  body :=
    .letIn (.bind false "b") (.method (.path "i") "buffer" []) (.mtch (.method (.method (.path "b") "iter" [])
      "position" [.closure [.bind false "c"] (.bin .eq (.call (.path "f") [.deref (.path "c")]) (.bool false))])
      [.mk (.con "Some" [.num 0]) (.bool true) (.method (.path "i") "err" [.call (.path "err::unexpected") []]),
      .mk (.con "Some" [.bind false "n"]) (.bool true) (.method (.method (.path "i") "replace" [.ref (.index
      (.path "b") (.con "RangeFrom" [.path "n"]))]) "ret" [.ref (.index (.path "b") (.con "RangeTo" [.path
      "n"]))]), .mk (.con "None" []) (.bool true) (.ite (.and (.bin .gt (.method (.path "b") "len" []) (.num 0))
      (.method (.path "i") "is_last_slice" [])) (.method (.method (.path "i") "replace" [.ref (.index (.path
      "b") (.con "RangeTo" [.num 0]))]) "ret" [.path "b"]) (.method (.path "i") "incomplete" [.num 1]))])

/-- `take_till`, src/parsers.rs:276-286. -/
def take_till : Fn where
  params := [.bind false "i", .bind false "f"]
  body :=
    .letIn (.bind false "b") (.method (.path "i") "buffer" []) (.mtch (.method (.method (.method (.path "b")
      "iter" []) "cloned" []) "position" [.path "f"]) [.mk (.con "Some" [.bind false "n"]) (.bool true) (.method
      (.method (.path "i") "replace" [.ref (.index (.path "b") (.con "RangeFrom" [.path "n"]))]) "ret" [.ref
      (.index (.path "b") (.con "Range" [.num 0, .path "n"]))]), .mk (.con "None" []) (.bool true) (.method
      (.path "i") "incomplete" [.num 1])])

/-- `scan`, src/parsers.rs:303-314. -/
def scan : Fn where
  params := [.bind false "i", .bind false "s", .bind false "f"]
  body :=
    .letIn (.bind true "f") (.path "f") (.letIn (.bind false "b") (.method (.path "i") "buffer" []) (.letIn
      (.bind true "state") (.con "Some" [.path "s"]) (.mtch (.method (.method (.path "b") "iter" []) "position"
      [.closure [.bind false "c"] (.seq (.assign (.path "state") (.call (.path "f") [.method (.call (.path
      "mem::replace") [.refMut (.path "state"), .con "None" []]) "unwrap" [], .path "c"])) (.method (.path
      "state") "is_none" []))]) [.mk (.con "Some" [.bind false "n"]) (.bool true) (.method (.method (.path "i")
      "replace" [.ref (.index (.path "b") (.con "RangeFrom" [.path "n"]))]) "ret" [.ref (.index (.path "b")
      (.con "Range" [.num 0, .path "n"]))]), .mk (.con "None" []) (.bool true) (.method (.path "i") "incomplete"
      [.num 1])])))

/-- `run_scanner`, src/parsers.rs:330-341. -/
def run_scanner : Fn where
  params := [.bind false "i", .bind false "s", .bind false "f"]
  body :=
    .letIn (.bind true "f") (.path "f") (.letIn (.bind false "b") (.method (.path "i") "buffer" []) (.letIn
      (.bind true "state") (.path "s") (.mtch (.method (.method (.path "b") "iter" []) "position" [.closure
      [.bind false "c"] (.letIn (.bind false "t") (.call (.path "f") [.path "state", .path "c"]) (.mtch (.path
      "t") [.mk (.con "None" []) (.bool true) (.bool true), .mk (.con "Some" [.bind false "v"]) (.bool true)
      (.seq (.assign (.path "state") (.path "v")) (.bool false))]))]) [.mk (.con "Some" [.bind false "n"])
      (.bool true) (.method (.method (.path "i") "replace" [.ref (.index (.path "b") (.con "RangeFrom" [.path
      "n"]))]) "ret" [.tuple [.ref (.index (.path "b") (.con "Range" [.num 0, .path "n"])), .path "state"]]),
      .mk (.con "None" []) (.bool true) (.method (.path "i") "incomplete" [.num 1])])))

/-- `take_remainder`, src/parsers.rs:351-358. -/
def take_remainder : Fn where
  params := [.bind false "i"]
  body :=
    .letIn (.bind false "b") (.method (.path "i") "buffer" []) (.method (.method (.path "i") "replace" [.ref
      (.index (.path "b") (.con "RangeTo" [.num 0]))]) "ret" [.path "b"])

/-- `string`, src/parsers.rs:371-388. -/
def string : Fn where
  params := [.bind false "i", .bind false "s"]
  body :=
    .letIn (.bind false "b") (.method (.path "i") "buffer" []) (.seq (.ite (.bin .gt (.method (.path "s") "len"
      []) (.method (.path "b") "len" [])) (.seq (.ret (.method (.path "i") "incomplete" [.bin .sub (.method
      (.path "s") "len" []) (.method (.path "b") "len" [])])) (.tuple [])) (.tuple [])) (.letIn (.bind false
      "d") (.ref (.index (.path "b") (.con "RangeTo" [.method (.path "s") "len" []]))) (.seq (.forIn (.bind
      false "j") (.con "Range" [.num 0, .method (.path "s") "len" []]) (.ite (.bin .ne (.index (.path "s")
      (.path "j")) (.index (.path "d") (.path "j"))) (.seq (.ret (.call (.path "err::string") [.path "i", .path
      "j", .path "s"])) (.tuple [])) (.tuple []))) (.method (.method (.path "i") "replace" [.ref (.index (.path
      "b") (.con "RangeFrom" [.method (.path "s") "len" []]))]) "ret" [.path "d"]))))

/-- `eof`, src/parsers.rs:400-406. -/
def eof : Fn where
  params := [.bind false "i"]
  body :=
    .ite (.and (.bin .eq (.method (.method (.path "i") "buffer" []) "len" []) (.num 0)) (.method (.path "i")
      "is_last_slice" [])) (.method (.path "i") "ret" [.tuple []]) (.method (.path "i") "err" [.call (.path
      "err::unexpected") []])

/-- `Error::new`, src/parsers.rs:431-433, with the feature `verbose_error`. -/
def Error_new_verbose : Fn where
  params := []
  body :=
    .con "Error::Unexpected" []

/-- `Error::fmt`, src/parsers.rs:439-445, with the feature `verbose_error`. -/
def Error_fmt_verbose : Fn where
  params := [.bind false "self", .bind false "f"]
  body :=
    .mtch (.deref (.path "self")) [.mk (.con "Error::Expected" [.bind false "c"]) (.bool true) (.call (.path
      "write!") [.path "f", .str "expected ", .con "Debug" [.deref (.path "c")]]), .mk (.con "Error::Unexpected"
      []) (.bool true) (.call (.path "write!") [.path "f", .str "unexpected"]), .mk (.con "Error::String" [.bind
      false "s"]) (.bool true) (.call (.path "write!") [.path "f", .str "expected ", .con "Debug" [.deref (.path
      "s")]])]

/-- `Error::description`, src/parsers.rs:450-457, with the feature `verbose_error`. -/
def Error_description_verbose : Fn where
  params := [.bind false "self"]
  body :=
    .mtch (.deref (.path "self")) [.mk (.con "Error::Expected" [.wild]) (.bool true) (.str
      "expected a certain token, received another"), .mk (.con "Error::Unexpected" []) (.bool true) (.str
      "received an unexpected token"), .mk (.con "Error::String" [.wild]) (.bool true) (.str
      "expected a certain string of tokens, encountered an unexpected token")]

/-- `err::unexpected`, src/parsers.rs:471-473, with the feature `verbose_error`. -/
def err_unexpected_verbose : Fn where
  params := []
  body :=
    .con "Error::Unexpected" []

/-- `err::expected`, src/parsers.rs:476-478, with the feature `verbose_error`. -/
def err_expected_verbose : Fn where
  params := [.bind false "i"]
  body :=
    .con "Error::Expected" [.path "i"]

/-- `err::string`, src/parsers.rs:482-486, with the feature `verbose_error`. -/
def err_string_verbose : Fn where
  params := [.bind false "i", .bind false "_offset", .bind false "expected"]
  body :=
    .method (.path "i") "err" [.con "Error::String" [.method (.path "expected") "to_vec" []]]

/-- `Error::new`, src/parsers.rs:504-506, without the feature `verbose_error`. -/
def Error_new_terse : Fn where
  params := []
  body :=
    .con "Error" [.con "PhantomData" []]

/-- `Error::fmt`, src/parsers.rs:511-513, without the feature `verbose_error`. -/
def Error_fmt_terse : Fn where
  params := [.bind false "self", .bind false "f"]
  body :=
    .call (.path "write!") [.path "f", .str
      "generic parse error (chomp was compiled without --feature verbose_error)"]

/-- `Error::description`, src/parsers.rs:518-520, without the feature `verbose_error`. -/
def Error_description_terse : Fn where
  params := [.bind false "self"]
  body :=
    .str "generic parse error (chomp was compiled without --feature verbose_error)"

/-- `err::unexpected`, src/parsers.rs:537-539, without the feature `verbose_error`. -/
def err_unexpected_terse : Fn where
  params := []
  body :=
    .con "Error" [.con "PhantomData" []]

/-- `err::expected`, src/parsers.rs:542-544, without the feature `verbose_error`. -/
def err_expected_terse : Fn where
  params := [.wild]
  body :=
    .con "Error" [.con "PhantomData" []]

/-- `err::string`, src/parsers.rs:547-555, without the feature `verbose_error`. -/
def err_string_terse : Fn where
  params := [.bind false "i", .bind false "offset", .bind false "_expected"]
  body :=
    .letIn (.bind false "b") (.method (.path "i") "buffer" []) (.method (.method (.path "i") "replace" [.ref
      (.index (.path "b") (.con "RangeFrom" [.path "offset"]))]) "err" [.con "Error" [.con "PhantomData" []]])

/-- `is_lowercase`, src/ascii.rs:14-16. -/
def is_lowercase : Fn where
  params := [.bind false "c"]
  body :=
    .and (.bin .le (.byte 97) (.path "c")) (.bin .le (.path "c") (.byte 122))

/-- `is_uppercase`, src/ascii.rs:20-22. -/
def is_uppercase : Fn where
  params := [.bind false "c"]
  body :=
    .and (.bin .le (.byte 65) (.path "c")) (.bin .le (.path "c") (.byte 90))

/-- `is_whitespace`, src/ascii.rs:35-37. -/
def is_whitespace : Fn where
  params := [.bind false "c"]
  body :=
    .or (.and (.bin .le (.byte 9) (.path "c")) (.bin .le (.path "c") (.byte 13))) (.bin .eq (.path "c") (.byte
      32))

/-- `is_horizontal_space`, src/ascii.rs:41-43. -/
def is_horizontal_space : Fn where
  params := [.bind false "c"]
  body :=
    .or (.bin .eq (.path "c") (.byte 9)) (.bin .eq (.path "c") (.byte 32))

/-- `is_end_of_line`, src/ascii.rs:47-49. -/
def is_end_of_line : Fn where
  params := [.bind false "c"]
  body :=
    .or (.bin .eq (.path "c") (.byte 10)) (.bin .eq (.path "c") (.byte 13))

/-- `is_digit`, src/ascii.rs:53-55. -/
def is_digit : Fn where
  params := [.bind false "c"]
  body :=
    .and (.bin .le (.byte 48) (.path "c")) (.bin .le (.path "c") (.byte 57))

/-- `is_alpha`, src/ascii.rs:59-61. -/
def is_alpha : Fn where
  params := [.bind false "c"]
  body :=
    .or (.call (.path "is_lowercase") [.path "c"]) (.call (.path "is_uppercase") [.path "c"])

/-- `is_alphanumeric`, src/ascii.rs:65-67. -/
def is_alphanumeric : Fn where
  params := [.bind false "c"]
  body :=
    .or (.call (.path "is_alpha") [.path "c"]) (.call (.path "is_digit") [.path "c"])

/-- `skip_whitespace`, src/ascii.rs:82-84. -/
def skip_whitespace : Fn where
  params := [.bind false "i"]
  body :=
    .method (.call (.path "take_while") [.path "i", .path "is_whitespace"]) "map" [.closure [.wild] (.tuple [])]

/-- `digit`, src/ascii.rs:101-103. -/
def digit : Fn where
  params := [.bind false "i"]
  body :=
    .call (.path "satisfy") [.path "i", .path "is_digit"]

/-- `signed`, src/ascii.rs:123-131. -/
def signed : Fn where
  params := [.bind false "i", .bind false "f"]
  body :=
    .method (.call (.path "option") [.path "i", .closure [.bind false "i"] (.method (.call (.path "satisfy")
      [.path "i", .closure [.bind false "c"] (.or (.bin .eq (.path "c") (.byte 45)) (.bin .eq (.path "c") (.byte
      43)))]) "map" [.closure [.bind false "s"] (.method (.call (.path "<T as ValueFrom<i8>>::value_from") [.ite
      (.bin .eq (.path "s") (.byte 43)) (.num 1) (.neg (.num 1))]) "unwrap_ok" [])]), .method (.call (.path
      "<T as ValueFrom<i8>>::value_from") [.num 1]) "unwrap_ok" []]) "bind" [.closure [.bind false "i", .bind
      false "sign"] (.method (.call (.path "f") [.path "i"]) "map" [.closure [.bind false "num"] (.bin .mul
      (.path "sign") (.path "num"))])]

/-- `decimal`, src/ascii.rs:150-152. -/
def decimal : Fn where
  params := [.bind false "i"]
  body :=
    .method (.call (.path "take_while1") [.path "i", .path "is_digit"]) "bind" [.closure [.bind false "i", .bind
      false "buf"] (.method (.path "i") "ret" [.call (.path "to_decimal") [.path "buf"]])]

/-- `to_decimal`, src/ascii.rs:161-163. -/
def to_decimal : Fn where
  params := [.bind false "buf"]
  body :=
    .method (.method (.path "buf") "iter" []) "fold" [.method (.call (.path "<T as ValueFrom<u8>>::value_from")
      [.byte 0]) "unwrap_ok" [], .closure [.bind false "a", .bind false "n"] (.bin .add (.bin .mul (.path "a")
      (.method (.call (.path "<T as ValueFrom<u8>>::value_from") [.byte 10]) "unwrap_ok" [])) (.method (.call
      (.path "<T as ValueFrom<u8>>::value_from") [.bin .sub (.path "n") (.byte 48)]) "unwrap_ok" []))]

/-- `end_state` of `Iter`, src/combinators/macros.rs:84-86, as expanded in `Range::parse_many`, src/combinators/bounded.rs. -/
def Range_parse_many_end_state : Fn where
  params := [.bind false "self"]
  body :=
    .tuple [.field (.path "self") "buf", .field (.path "self") "data", .field (.path "self") "state"]

/-- `size_hint` of `Iter`, src/combinators/macros.rs:97-99, as expanded in `Range::parse_many`, src/combinators/bounded.rs. -/
def Range_parse_many_size_hint : Fn where
  params := [.bind false "self"]
  body :=
    .tuple [.field (.field (.path "self") "data") "0", .con "Some" [.field (.field (.path "self") "data") "1"]]

/-- `next` of `Iter`, src/combinators/macros.rs:102-124, as expanded in `Range::parse_many`, src/combinators/bounded.rs. -/
def Range_parse_many_next : Fn where
  params := [.bind false "self"]
  body :=
    .seq (.ite (.bin .eq (.field (.field (.path "self") "data") "1") (.num 0)) (.seq (.ret (.con "None" []))
      (.tuple [])) (.tuple [])) (.mtch (.method (.call (.field (.path "self") "parser") [.method (.field (.path
      "self") "buf") "clone" []]) "into_inner" []) [.mk (.con "State::Data" [.bind false "b", .bind false "v"])
      (.bool true) (.seq (.assign (.field (.path "self") "buf") (.path "b")) (.seq (.seq (.assign (.field
      (.field (.path "self") "data") "0") (.ite (.bin .eq (.field (.field (.path "self") "data") "0") (.num 0))
      (.num 0) (.bin .sub (.field (.field (.path "self") "data") "0") (.num 1)))) (.seq (.assign (.field (.field
      (.path "self") "data") "1") (.bin .sub (.field (.field (.path "self") "data") "1") (.num 1))) (.tuple
      []))) (.con "Some" [.path "v"]))), .mk (.con "State::Error" [.bind false "b", .bind false "e"]) (.bool
      true) (.seq (.assign (.field (.path "self") "state") (.con "EndState::Error" [.path "b", .path "e"]))
      (.con "None" [])), .mk (.con "State::Incomplete" [.bind false "n"]) (.bool true) (.seq (.assign (.field
      (.path "self") "state") (.con "EndState::Incomplete" [.path "n"])) (.con "None" []))])
  byMut := true

/-- `Range::parse_many`, src/combinators/bounded.rs:104-151. -/
def Range_parse_many : Fn where
  params := [.bind false "self", .bind false "i", .bind false "f"]
  body :=
    .seq (.ite (.bin .le (.field (.path "self") "start") (.field (.path "self") "end")) (.tuple []) .panic)
      (.letIn (.bind true "iter") (.strct "Iter of Range::parse_many" ["state", "parser", "buf", "data", "_t"]
      [.con "EndState::Incomplete" [.num 1], .path "f", .path "i", .tuple [.field (.path "self") "start", .bin
      .sub (.call (.path "max") [.field (.path "self") "end", .num 1]) (.num 1)], .con "PhantomData" []])
      (.letIn (.tuple [.bind false "result", .bind false "state"]) (.letIn (.bind true "item") (.bool false)
      (.letIn (.bind false "result") (.call (.path "FromIterator::from_iter") [.method (.method (.path "iter")
      "by_ref" []) "inspect" [.closure [.wild] (.assign (.path "item") (.bool true))]]) (.tuple [.path "result",
      .method (.path "iter") "end_state" []]))) (.mtch (.path "state") [.mk (.tuple [.bind false "s", .tuple
      [.num 0, .num 0], .wild]) (.bool true) (.method (.path "s") "ret" [.path "result"]), .mk (.tuple [.bind
      false "s", .tuple [.num 0, .wild], .con "EndState::Error" [.wild, .wild]]) (.bool true) (.method (.path
      "s") "ret" [.path "result"]), .mk (.tuple [.bind false "s", .tuple [.num 0, .wild], .con
      "EndState::Incomplete" [.bind false "n"]]) (.bool true) (.ite (.method (.path "s") "is_last_slice" [])
      (.method (.path "s") "ret" [.path "result"]) (.method (.path "s") "incomplete" [.path "n"])), .mk (.tuple
      [.bind false "s", .tuple [.wild, .wild], .con "EndState::Error" [.bind false "b", .bind false "e"]])
      (.bool true) (.method (.method (.path "s") "replace" [.path "b"]) "err" [.path "e"]), .mk (.tuple [.bind
      false "s", .tuple [.wild, .wild], .con "EndState::Incomplete" [.bind false "n"]]) (.bool true) (.method
      (.path "s") "incomplete" [.path "n"])])))

/-- `Range::skip_many`, src/combinators/bounded.rs:154-191. -/
def Range_skip_many : Fn where
  params := [.bind false "self", .bind false "i", .bind false "f"]
  body :=
    .letIn (.bind true "i") (.path "i") (.letIn (.bind true "f") (.path "f") (.seq (.ite (.bin .le (.field
      (.path "self") "start") (.field (.path "self") "end")) (.tuple []) .panic) (.letIn (.tuple [.bind true
      "min", .bind true "max"]) (.tuple [.field (.path "self") "start", .bin .sub (.call (.path "max") [.field
      (.path "self") "end", .num 1]) (.num 1)]) (.seq (.loop (.seq (.ite (.bin .eq (.path "max") (.num 0)) (.seq
      .brk (.tuple [])) (.tuple [])) (.mtch (.method (.call (.path "f") [.method (.path "i") "clone" []])
      "into_inner" []) [.mk (.con "State::Data" [.bind false "b", .wild]) (.bool true) (.seq (.assign (.path
      "min") (.ite (.bin .eq (.path "min") (.num 0)) (.num 0) (.bin .sub (.path "min") (.num 1)))) (.seq
      (.assign (.path "max") (.bin .sub (.path "max") (.num 1))) (.assign (.path "i") (.path "b")))), .mk (.con
      "State::Error" [.bind false "b", .bind false "e"]) (.bool true) (.ite (.bin .eq (.path "min") (.num 0))
      (.seq .brk (.tuple [])) (.seq (.ret (.method (.method (.path "i") "replace" [.path "b"]) "err" [.path
      "e"])) (.tuple []))), .mk (.con "State::Incomplete" [.bind false "n"]) (.bool true) (.ite (.and (.bin .eq
      (.path "min") (.num 0)) (.method (.path "i") "is_last_slice" [])) (.seq .brk (.tuple [])) (.seq (.ret
      (.method (.path "i") "incomplete" [.path "n"])) (.tuple [])))]))) (.method (.path "i") "ret" [.tuple
      []])))))

/-- `end_state` of `IterTill`, src/combinators/macros.rs:197-199, as expanded in `Range::many_till`, src/combinators/bounded.rs. -/
def Range_many_till_end_state : Fn where
  params := [.bind false "self"]
  body :=
    .tuple [.field (.path "self") "buf", .field (.path "self") "data", .field (.path "self") "state"]

/-- `size_hint` of `IterTill`, src/combinators/macros.rs:213-215, as expanded in `Range::many_till`, src/combinators/bounded.rs. -/
def Range_many_till_size_hint : Fn where
  params := [.bind false "self"]
  body :=
    .tuple [.field (.field (.path "self") "data") "0", .con "Some" [.field (.field (.path "self") "data") "1"]]

/-- `next` of `IterTill`, src/combinators/macros.rs:218-240, as expanded in `Range::many_till`, src/combinators/bounded.rs. -/
def Range_many_till_next : Fn where
  params := [.bind false "self"]
  body :=
    .seq (.seq (.ite (.bin .eq (.field (.field (.path "self") "data") "0") (.num 0)) (.seq (.mtch (.method
      (.call (.field (.path "self") "end") [.method (.field (.path "self") "buf") "clone" []]) "into_inner" [])
      [.mk (.con "State::Data" [.bind false "b", .wild]) (.bool true) (.seq (.assign (.field (.path "self")
      "buf") (.path "b")) (.seq (.assign (.field (.path "self") "state") (.con "EndStateTill::EndSuccess" []))
      (.ret (.con "None" [])))), .mk .wild (.bool true) (.tuple [])]) (.tuple [])) (.tuple [])) (.ite (.bin .eq
      (.field (.field (.path "self") "data") "1") (.num 0)) (.seq (.mtch (.method (.call (.field (.path "self")
      "end") [.method (.field (.path "self") "buf") "clone" []]) "into_inner" []) [.mk (.con "State::Data"
      [.bind false "b", .wild]) (.bool true) (.seq (.assign (.field (.path "self") "buf") (.path "b")) (.seq
      (.assign (.field (.path "self") "state") (.con "EndStateTill::EndSuccess" [])) (.ret (.con "None" [])))),
      .mk .wild (.bool true) (.tuple [])]) (.seq (.ret (.con "None" [])) (.tuple []))) (.tuple []))) (.mtch
      (.method (.call (.field (.path "self") "parser") [.method (.field (.path "self") "buf") "clone" []])
      "into_inner" []) [.mk (.con "State::Data" [.bind false "b", .bind false "v"]) (.bool true) (.seq (.assign
      (.field (.path "self") "buf") (.path "b")) (.seq (.seq (.assign (.field (.field (.path "self") "data")
      "0") (.ite (.bin .eq (.field (.field (.path "self") "data") "0") (.num 0)) (.num 0) (.bin .sub (.field
      (.field (.path "self") "data") "0") (.num 1)))) (.seq (.assign (.field (.field (.path "self") "data") "1")
      (.bin .sub (.field (.field (.path "self") "data") "1") (.num 1))) (.tuple []))) (.con "Some" [.path
      "v"]))), .mk (.con "State::Error" [.bind false "b", .bind false "e"]) (.bool true) (.seq (.assign (.field
      (.path "self") "state") (.con "EndStateTill::Error" [.path "b", .path "e"])) (.con "None" [])), .mk (.con
      "State::Incomplete" [.bind false "n"]) (.bool true) (.seq (.assign (.field (.path "self") "state") (.con
      "EndStateTill::Incomplete" [.path "n"])) (.con "None" []))])
  byMut := true

/-- `Range::many_till`, src/combinators/bounded.rs:194-248. -/
def Range_many_till : Fn where
  params := [.bind false "self", .bind false "i", .bind false "p", .bind false "end"]
  body :=
    .seq (.ite (.bin .le (.field (.path "self") "start") (.field (.path "self") "end")) (.tuple []) .panic)
      (.letIn (.bind true "iter") (.strct "IterTill of Range::many_till" ["state", "parser", "end", "buf",
      "data", "_t"] [.con "EndStateTill::Incomplete" [.num 1], .path "p", .path "end", .path "i", .tuple [.field
      (.path "self") "start", .bin .sub (.call (.path "max") [.field (.path "self") "end", .num 1]) (.num 1)],
      .con "PhantomData" []]) (.letIn (.tuple [.bind false "result", .bind false "state"]) (.letIn (.bind true
      "item") (.bool false) (.letIn (.bind false "result") (.call (.path "FromIterator::from_iter") [.method
      (.method (.path "iter") "by_ref" []) "inspect" [.closure [.wild] (.assign (.path "item") (.bool true))]])
      (.tuple [.path "result", .method (.path "iter") "end_state" []]))) (.mtch (.path "state") [.mk (.tuple
      [.bind false "s", .tuple [.num 0, .wild], .con "EndStateTill::EndSuccess" []]) (.bool true) (.method
      (.path "s") "ret" [.path "result"]), .mk (.tuple [.bind false "s", .tuple [.wild, .wild], .con
      "EndStateTill::Error" [.bind false "b", .bind false "e"]]) (.bool true) (.method (.method (.path "s")
      "replace" [.path "b"]) "err" [.path "e"]), .mk (.tuple [.bind false "s", .tuple [.wild, .wild], .con
      "EndStateTill::Incomplete" [.bind false "n"]]) (.bool true) (.method (.path "s") "incomplete" [.path
      "n"]), .mk (.tuple [.wild, .tuple [.wild, .wild], .con "EndStateTill::EndSuccess" []]) (.bool true)
      .panic])))

/-- `end_state` of `Iter`, src/combinators/macros.rs:84-86, as expanded in `RangeFrom::parse_many`, src/combinators/bounded.rs. -/
def RangeFrom_parse_many_end_state : Fn where
  params := [.bind false "self"]
  body :=
    .tuple [.field (.path "self") "buf", .field (.path "self") "data", .field (.path "self") "state"]

/-- `size_hint` of `Iter`, src/combinators/macros.rs:97-99, as expanded in `RangeFrom::parse_many`, src/combinators/bounded.rs. -/
def RangeFrom_parse_many_size_hint : Fn where
  params := [.bind false "self"]
  body :=
    .tuple [.field (.path "self") "data", .con "None" []]

/-- `next` of `Iter`, src/combinators/macros.rs:102-124, as expanded in `RangeFrom::parse_many`, src/combinators/bounded.rs. -/
def RangeFrom_parse_many_next : Fn where
  params := [.bind false "self"]
  body :=
    .seq (.tuple []) (.mtch (.method (.call (.field (.path "self") "parser") [.method (.field (.path "self")
      "buf") "clone" []]) "into_inner" []) [.mk (.con "State::Data" [.bind false "b", .bind false "v"]) (.bool
      true) (.seq (.assign (.field (.path "self") "buf") (.path "b")) (.seq (.seq (.assign (.field (.path
      "self") "data") (.ite (.bin .eq (.field (.path "self") "data") (.num 0)) (.num 0) (.bin .sub (.field
      (.path "self") "data") (.num 1)))) (.tuple [])) (.con "Some" [.path "v"]))), .mk (.con "State::Error"
      [.bind false "b", .bind false "e"]) (.bool true) (.seq (.assign (.field (.path "self") "state") (.con
      "EndState::Error" [.path "b", .path "e"])) (.con "None" [])), .mk (.con "State::Incomplete" [.bind false
      "n"]) (.bool true) (.seq (.assign (.field (.path "self") "state") (.con "EndState::Incomplete" [.path
      "n"])) (.con "None" []))])
  byMut := true

/-- `RangeFrom::parse_many`, src/combinators/bounded.rs:253-289. -/
def RangeFrom_parse_many : Fn where
  params := [.bind false "self", .bind false "i", .bind false "f"]
  body :=
    .letIn (.bind true "iter") (.strct "Iter of RangeFrom::parse_many" ["state", "parser", "buf", "data", "_t"]
      [.con "EndState::Incomplete" [.num 1], .path "f", .path "i", .field (.path "self") "start", .con
      "PhantomData" []]) (.letIn (.tuple [.bind false "result", .bind false "state"]) (.letIn (.bind true
      "item") (.bool false) (.letIn (.bind false "result") (.call (.path "FromIterator::from_iter") [.method
      (.method (.path "iter") "by_ref" []) "inspect" [.closure [.wild] (.assign (.path "item") (.bool true))]])
      (.tuple [.path "result", .method (.path "iter") "end_state" []]))) (.mtch (.path "state") [.mk (.tuple
      [.bind false "s", .num 0, .con "EndState::Error" [.wild, .wild]]) (.bool true) (.method (.path "s") "ret"
      [.path "result"]), .mk (.tuple [.bind false "s", .num 0, .con "EndState::Incomplete" [.bind false "n"]])
      (.bool true) (.ite (.method (.path "s") "is_last_slice" []) (.method (.path "s") "ret" [.path "result"])
      (.method (.path "s") "incomplete" [.path "n"])), .mk (.tuple [.bind false "s", .wild, .con
      "EndState::Error" [.bind false "b", .bind false "e"]]) (.bool true) (.method (.method (.path "s")
      "replace" [.path "b"]) "err" [.path "e"]), .mk (.tuple [.bind false "s", .wild, .con
      "EndState::Incomplete" [.bind false "n"]]) (.bool true) (.method (.path "s") "incomplete" [.path "n"])]))

/-- `RangeFrom::skip_many`, src/combinators/bounded.rs:292-321. -/
def RangeFrom_skip_many : Fn where
  params := [.bind false "self", .bind false "i", .bind false "f"]
  body :=
    .letIn (.bind true "i") (.path "i") (.letIn (.bind true "f") (.path "f") (.letIn (.bind true "min") (.field
      (.path "self") "start") (.seq (.loop (.mtch (.method (.call (.path "f") [.method (.path "i") "clone" []])
      "into_inner" []) [.mk (.con "State::Data" [.bind false "b", .wild]) (.bool true) (.seq (.assign (.path
      "min") (.ite (.bin .eq (.path "min") (.num 0)) (.num 0) (.bin .sub (.path "min") (.num 1)))) (.assign
      (.path "i") (.path "b"))), .mk (.con "State::Error" [.bind false "b", .bind false "e"]) (.bool true) (.ite
      (.bin .eq (.path "min") (.num 0)) (.seq .brk (.tuple [])) (.seq (.ret (.method (.method (.path "i")
      "replace" [.path "b"]) "err" [.path "e"])) (.tuple []))), .mk (.con "State::Incomplete" [.bind false "n"])
      (.bool true) (.ite (.and (.bin .eq (.path "min") (.num 0)) (.method (.path "i") "is_last_slice" [])) (.seq
      .brk (.tuple [])) (.seq (.ret (.method (.path "i") "incomplete" [.path "n"])) (.tuple [])))])) (.method
      (.path "i") "ret" [.tuple []]))))

/-- `end_state` of `IterTill`, src/combinators/macros.rs:197-199, as expanded in `RangeFrom::many_till`, src/combinators/bounded.rs. -/
def RangeFrom_many_till_end_state : Fn where
  params := [.bind false "self"]
  body :=
    .tuple [.field (.path "self") "buf", .field (.path "self") "data", .field (.path "self") "state"]

/-- `size_hint` of `IterTill`, src/combinators/macros.rs:213-215, as expanded in `RangeFrom::many_till`, src/combinators/bounded.rs. -/
def RangeFrom_many_till_size_hint : Fn where
  params := [.bind false "self"]
  body :=
    .tuple [.field (.path "self") "data", .con "None" []]

/-- `next` of `IterTill`, src/combinators/macros.rs:218-240, as expanded in `RangeFrom::many_till`, src/combinators/bounded.rs. -/
def RangeFrom_many_till_next : Fn where
  params := [.bind false "self"]
  body :=
    .seq (.ite (.bin .eq (.field (.path "self") "data") (.num 0)) (.seq (.mtch (.method (.call (.field (.path
      "self") "end") [.method (.field (.path "self") "buf") "clone" []]) "into_inner" []) [.mk (.con
      "State::Data" [.bind false "b", .wild]) (.bool true) (.seq (.assign (.field (.path "self") "buf") (.path
      "b")) (.seq (.assign (.field (.path "self") "state") (.con "EndStateTill::EndSuccess" [])) (.ret (.con
      "None" [])))), .mk .wild (.bool true) (.tuple [])]) (.tuple [])) (.tuple [])) (.mtch (.method (.call
      (.field (.path "self") "parser") [.method (.field (.path "self") "buf") "clone" []]) "into_inner" []) [.mk
      (.con "State::Data" [.bind false "b", .bind false "v"]) (.bool true) (.seq (.assign (.field (.path "self")
      "buf") (.path "b")) (.seq (.seq (.assign (.field (.path "self") "data") (.ite (.bin .eq (.field (.path
      "self") "data") (.num 0)) (.num 0) (.bin .sub (.field (.path "self") "data") (.num 1)))) (.tuple []))
      (.con "Some" [.path "v"]))), .mk (.con "State::Error" [.bind false "b", .bind false "e"]) (.bool true)
      (.seq (.assign (.field (.path "self") "state") (.con "EndStateTill::Error" [.path "b", .path "e"])) (.con
      "None" [])), .mk (.con "State::Incomplete" [.bind false "n"]) (.bool true) (.seq (.assign (.field (.path
      "self") "state") (.con "EndStateTill::Incomplete" [.path "n"])) (.con "None" []))])
  byMut := true

/-- `RangeFrom::many_till`, src/combinators/bounded.rs:324-366. -/
def RangeFrom_many_till : Fn where
  params := [.bind false "self", .bind false "i", .bind false "p", .bind false "end"]
  body :=
    .letIn (.bind true "iter") (.strct "IterTill of RangeFrom::many_till" ["state", "parser", "end", "buf",
      "data", "_t"] [.con "EndStateTill::Incomplete" [.num 1], .path "p", .path "end", .path "i", .field (.path
      "self") "start", .con "PhantomData" []]) (.letIn (.tuple [.bind false "result", .bind false "state"])
      (.letIn (.bind true "item") (.bool false) (.letIn (.bind false "result") (.call (.path
      "FromIterator::from_iter") [.method (.method (.path "iter") "by_ref" []) "inspect" [.closure [.wild]
      (.assign (.path "item") (.bool true))]]) (.tuple [.path "result", .method (.path "iter") "end_state"
      []]))) (.mtch (.path "state") [.mk (.tuple [.bind false "s", .num 0, .con "EndStateTill::EndSuccess" []])
      (.bool true) (.method (.path "s") "ret" [.path "result"]), .mk (.tuple [.bind false "s", .wild, .con
      "EndStateTill::Error" [.bind false "b", .bind false "e"]]) (.bool true) (.method (.method (.path "s")
      "replace" [.path "b"]) "err" [.path "e"]), .mk (.tuple [.bind false "s", .wild, .con
      "EndStateTill::Incomplete" [.bind false "n"]]) (.bool true) (.method (.path "s") "incomplete" [.path
      "n"]), .mk (.tuple [.wild, .wild, .con "EndStateTill::EndSuccess" []]) (.bool true) .panic]))

/-- `end_state` of `Iter`, src/combinators/macros.rs:84-86, as expanded in `RangeFull::parse_many`, src/combinators/bounded.rs. -/
def RangeFull_parse_many_end_state : Fn where
  params := [.bind false "self"]
  body :=
    .tuple [.field (.path "self") "buf", .field (.path "self") "data", .field (.path "self") "state"]

/-- `size_hint` of `Iter`, src/combinators/macros.rs:97-99, as expanded in `RangeFull::parse_many`, src/combinators/bounded.rs. -/
def RangeFull_parse_many_size_hint : Fn where
  params := [.bind false "self"]
  body :=
    .tuple [.num 0, .con "None" []]

/-- `next` of `Iter`, src/combinators/macros.rs:102-124, as expanded in `RangeFull::parse_many`, src/combinators/bounded.rs. -/
def RangeFull_parse_many_next : Fn where
  params := [.bind false "self"]
  body :=
    .seq (.tuple []) (.mtch (.method (.call (.field (.path "self") "parser") [.method (.field (.path "self")
      "buf") "clone" []]) "into_inner" []) [.mk (.con "State::Data" [.bind false "b", .bind false "v"]) (.bool
      true) (.seq (.assign (.field (.path "self") "buf") (.path "b")) (.seq (.tuple []) (.con "Some" [.path
      "v"]))), .mk (.con "State::Error" [.bind false "b", .bind false "e"]) (.bool true) (.seq (.assign (.field
      (.path "self") "state") (.con "EndState::Error" [.path "b", .path "e"])) (.con "None" [])), .mk (.con
      "State::Incomplete" [.bind false "n"]) (.bool true) (.seq (.assign (.field (.path "self") "state") (.con
      "EndState::Incomplete" [.path "n"])) (.con "None" []))])
  byMut := true

/-- `RangeFull::parse_many`, src/combinators/bounded.rs:371-400. -/
def RangeFull_parse_many : Fn where
  params := [.bind false "self", .bind false "i", .bind false "f"]
  body :=
    .letIn (.bind true "iter") (.strct "Iter of RangeFull::parse_many" ["state", "parser", "buf", "data", "_t"]
      [.con "EndState::Incomplete" [.num 1], .path "f", .path "i", .tuple [], .con "PhantomData" []]) (.letIn
      (.tuple [.bind false "result", .bind false "state"]) (.letIn (.bind true "item") (.bool false) (.letIn
      (.bind false "result") (.call (.path "FromIterator::from_iter") [.method (.method (.path "iter") "by_ref"
      []) "inspect" [.closure [.wild] (.assign (.path "item") (.bool true))]]) (.tuple [.path "result", .method
      (.path "iter") "end_state" []]))) (.mtch (.path "state") [.mk (.tuple [.bind false "s", .tuple [], .con
      "EndState::Error" [.wild, .wild]]) (.bool true) (.method (.path "s") "ret" [.path "result"]), .mk (.tuple
      [.bind false "s", .tuple [], .con "EndState::Incomplete" [.bind false "n"]]) (.bool true) (.ite (.method
      (.path "s") "is_last_slice" []) (.method (.path "s") "ret" [.path "result"]) (.method (.path "s")
      "incomplete" [.path "n"]))]))

/-- `RangeFull::skip_many`, src/combinators/bounded.rs:403-419. -/
def RangeFull_skip_many : Fn where
  params := [.bind false "self", .bind false "i", .bind false "f"]
  body :=
    .letIn (.bind true "i") (.path "i") (.letIn (.bind true "f") (.path "f") (.seq (.loop (.mtch (.method (.call
      (.path "f") [.method (.path "i") "clone" []]) "into_inner" []) [.mk (.con "State::Data" [.bind false "b",
      .wild]) (.bool true) (.assign (.path "i") (.path "b")), .mk (.con "State::Error" [.wild, .wild]) (.bool
      true) .brk, .mk (.con "State::Incomplete" [.bind false "n"]) (.bool true) (.ite (.method (.path "i")
      "is_last_slice" []) (.seq .brk (.tuple [])) (.seq (.ret (.method (.path "i") "incomplete" [.path "n"]))
      (.tuple [])))])) (.method (.path "i") "ret" [.tuple []])))

/-- `end_state` of `IterTill`, src/combinators/macros.rs:197-199, as expanded in `RangeFull::many_till`, src/combinators/bounded.rs. -/
def RangeFull_many_till_end_state : Fn where
  params := [.bind false "self"]
  body :=
    .tuple [.field (.path "self") "buf", .field (.path "self") "data", .field (.path "self") "state"]

/-- `size_hint` of `IterTill`, src/combinators/macros.rs:213-215, as expanded in `RangeFull::many_till`, src/combinators/bounded.rs. -/
def RangeFull_many_till_size_hint : Fn where
  params := [.bind false "self"]
  body :=
    .tuple [.num 0, .con "None" []]

/-- `next` of `IterTill`, src/combinators/macros.rs:218-240, as expanded in `RangeFull::many_till`, src/combinators/bounded.rs. -/
def RangeFull_many_till_next : Fn where
  params := [.bind false "self"]
  body :=
    .seq (.seq (.mtch (.method (.call (.field (.path "self") "end") [.method (.field (.path "self") "buf")
      "clone" []]) "into_inner" []) [.mk (.con "State::Data" [.bind false "b", .wild]) (.bool true) (.seq
      (.assign (.field (.path "self") "buf") (.path "b")) (.seq (.assign (.field (.path "self") "state") (.con
      "EndStateTill::EndSuccess" [])) (.ret (.con "None" [])))), .mk .wild (.bool true) (.tuple [])]) (.tuple
      [])) (.mtch (.method (.call (.field (.path "self") "parser") [.method (.field (.path "self") "buf")
      "clone" []]) "into_inner" []) [.mk (.con "State::Data" [.bind false "b", .bind false "v"]) (.bool true)
      (.seq (.assign (.field (.path "self") "buf") (.path "b")) (.seq (.tuple []) (.con "Some" [.path "v"]))),
      .mk (.con "State::Error" [.bind false "b", .bind false "e"]) (.bool true) (.seq (.assign (.field (.path
      "self") "state") (.con "EndStateTill::Error" [.path "b", .path "e"])) (.con "None" [])), .mk (.con
      "State::Incomplete" [.bind false "n"]) (.bool true) (.seq (.assign (.field (.path "self") "state") (.con
      "EndStateTill::Incomplete" [.path "n"])) (.con "None" []))])
  byMut := true

/-- `RangeFull::many_till`, src/combinators/bounded.rs:422-455. -/
def RangeFull_many_till : Fn where
  params := [.bind false "self", .bind false "i", .bind false "p", .bind false "end"]
  body :=
    .letIn (.bind true "iter") (.strct "IterTill of RangeFull::many_till" ["state", "parser", "end", "buf",
      "data", "_t"] [.con "EndStateTill::Incomplete" [.num 1], .path "p", .path "end", .path "i", .tuple [],
      .con "PhantomData" []]) (.letIn (.tuple [.bind false "result", .bind false "state"]) (.letIn (.bind true
      "item") (.bool false) (.letIn (.bind false "result") (.call (.path "FromIterator::from_iter") [.method
      (.method (.path "iter") "by_ref" []) "inspect" [.closure [.wild] (.assign (.path "item") (.bool true))]])
      (.tuple [.path "result", .method (.path "iter") "end_state" []]))) (.mtch (.path "state") [.mk (.tuple
      [.bind false "s", .tuple [], .con "EndStateTill::EndSuccess" []]) (.bool true) (.method (.path "s") "ret"
      [.path "result"]), .mk (.tuple [.bind false "s", .tuple [], .con "EndStateTill::Error" [.bind false "b",
      .bind false "e"]]) (.bool true) (.method (.method (.path "s") "replace" [.path "b"]) "err" [.path "e"]),
      .mk (.tuple [.bind false "s", .tuple [], .con "EndStateTill::Incomplete" [.bind false "n"]]) (.bool true)
      (.method (.path "s") "incomplete" [.path "n"])]))

/-- `end_state` of `Iter`, src/combinators/macros.rs:84-86, as expanded in `RangeTo::parse_many`, src/combinators/bounded.rs. -/
def RangeTo_parse_many_end_state : Fn where
  params := [.bind false "self"]
  body :=
    .tuple [.field (.path "self") "buf", .field (.path "self") "data", .field (.path "self") "state"]

/-- `size_hint` of `Iter`, src/combinators/macros.rs:97-99, as expanded in `RangeTo::parse_many`, src/combinators/bounded.rs. -/
def RangeTo_parse_many_size_hint : Fn where
  params := [.bind false "self"]
  body :=
    .tuple [.num 0, .con "Some" [.field (.path "self") "data"]]

/-- `next` of `Iter`, src/combinators/macros.rs:102-124, as expanded in `RangeTo::parse_many`, src/combinators/bounded.rs. -/
def RangeTo_parse_many_next : Fn where
  params := [.bind false "self"]
  body :=
    .seq (.ite (.bin .eq (.field (.path "self") "data") (.num 0)) (.seq (.ret (.con "None" [])) (.tuple []))
      (.tuple [])) (.mtch (.method (.call (.field (.path "self") "parser") [.method (.field (.path "self")
      "buf") "clone" []]) "into_inner" []) [.mk (.con "State::Data" [.bind false "b", .bind false "v"]) (.bool
      true) (.seq (.assign (.field (.path "self") "buf") (.path "b")) (.seq (.seq (.assign (.field (.path
      "self") "data") (.bin .sub (.field (.path "self") "data") (.num 1))) (.tuple [])) (.con "Some" [.path
      "v"]))), .mk (.con "State::Error" [.bind false "b", .bind false "e"]) (.bool true) (.seq (.assign (.field
      (.path "self") "state") (.con "EndState::Error" [.path "b", .path "e"])) (.con "None" [])), .mk (.con
      "State::Incomplete" [.bind false "n"]) (.bool true) (.seq (.assign (.field (.path "self") "state") (.con
      "EndState::Incomplete" [.path "n"])) (.con "None" []))])
  byMut := true

/-- `RangeTo::parse_many`, src/combinators/bounded.rs:460-499. -/
def RangeTo_parse_many : Fn where
  params := [.bind false "self", .bind false "i", .bind false "f"]
  body :=
    .letIn (.bind true "iter") (.strct "Iter of RangeTo::parse_many" ["state", "parser", "buf", "data", "_t"]
      [.con "EndState::Incomplete" [.num 1], .path "f", .path "i", .bin .sub (.call (.path "max") [.field (.path
      "self") "end", .num 1]) (.num 1), .con "PhantomData" []]) (.letIn (.tuple [.bind false "result", .bind
      false "state"]) (.letIn (.bind true "item") (.bool false) (.letIn (.bind false "result") (.call (.path
      "FromIterator::from_iter") [.method (.method (.path "iter") "by_ref" []) "inspect" [.closure [.wild]
      (.assign (.path "item") (.bool true))]]) (.tuple [.path "result", .method (.path "iter") "end_state"
      []]))) (.mtch (.path "state") [.mk (.tuple [.bind false "s", .num 0, .wild]) (.bool true) (.method (.path
      "s") "ret" [.path "result"]), .mk (.tuple [.bind false "s", .wild, .con "EndState::Error" [.wild, .wild]])
      (.bool true) (.method (.path "s") "ret" [.path "result"]), .mk (.tuple [.bind false "s", .wild, .con
      "EndState::Incomplete" [.bind false "n"]]) (.bool true) (.ite (.method (.path "s") "is_last_slice" [])
      (.method (.path "s") "ret" [.path "result"]) (.method (.path "s") "incomplete" [.path "n"]))]))

/-- `RangeTo::skip_many`, src/combinators/bounded.rs:502-530. -/
def RangeTo_skip_many : Fn where
  params := [.bind false "self", .bind false "i", .bind false "f"]
  body :=
    .letIn (.bind true "i") (.path "i") (.letIn (.bind true "f") (.path "f") (.letIn (.bind true "max") (.bin
      .sub (.call (.path "max") [.field (.path "self") "end", .num 1]) (.num 1)) (.seq (.loop (.seq (.ite (.bin
      .eq (.path "max") (.num 0)) (.seq .brk (.tuple [])) (.tuple [])) (.mtch (.method (.call (.path "f")
      [.method (.path "i") "clone" []]) "into_inner" []) [.mk (.con "State::Data" [.bind false "b", .wild])
      (.bool true) (.seq (.assign (.path "max") (.bin .sub (.path "max") (.num 1))) (.assign (.path "i") (.path
      "b"))), .mk (.con "State::Error" [.wild, .wild]) (.bool true) .brk, .mk (.con "State::Incomplete" [.bind
      false "n"]) (.bool true) (.ite (.method (.path "i") "is_last_slice" []) (.seq .brk (.tuple [])) (.seq
      (.ret (.method (.path "i") "incomplete" [.path "n"])) (.tuple [])))]))) (.method (.path "i") "ret" [.tuple
      []]))))

/-- `end_state` of `IterTill`, src/combinators/macros.rs:197-199, as expanded in `RangeTo::many_till`, src/combinators/bounded.rs. -/
def RangeTo_many_till_end_state : Fn where
  params := [.bind false "self"]
  body :=
    .tuple [.field (.path "self") "buf", .field (.path "self") "data", .field (.path "self") "state"]

/-- `size_hint` of `IterTill`, src/combinators/macros.rs:213-215, as expanded in `RangeTo::many_till`, src/combinators/bounded.rs. -/
def RangeTo_many_till_size_hint : Fn where
  params := [.bind false "self"]
  body :=
    .tuple [.num 0, .con "Some" [.field (.path "self") "data"]]

/-- `next` of `IterTill`, src/combinators/macros.rs:218-240, as expanded in `RangeTo::many_till`, src/combinators/bounded.rs. -/
def RangeTo_many_till_next : Fn where
  params := [.bind false "self"]
  body :=
    .seq (.seq (.mtch (.method (.call (.field (.path "self") "end") [.method (.field (.path "self") "buf")
      "clone" []]) "into_inner" []) [.mk (.con "State::Data" [.bind false "b", .wild]) (.bool true) (.seq
      (.assign (.field (.path "self") "buf") (.path "b")) (.seq (.assign (.field (.path "self") "state") (.con
      "EndStateTill::EndSuccess" [])) (.ret (.con "None" [])))), .mk .wild (.bool true) (.tuple [])]) (.ite
      (.bin .eq (.field (.path "self") "data") (.num 0)) (.seq (.ret (.con "None" [])) (.tuple [])) (.tuple
      []))) (.mtch (.method (.call (.field (.path "self") "parser") [.method (.field (.path "self") "buf")
      "clone" []]) "into_inner" []) [.mk (.con "State::Data" [.bind false "b", .bind false "v"]) (.bool true)
      (.seq (.assign (.field (.path "self") "buf") (.path "b")) (.seq (.seq (.assign (.field (.path "self")
      "data") (.bin .sub (.field (.path "self") "data") (.num 1))) (.tuple [])) (.con "Some" [.path "v"]))), .mk
      (.con "State::Error" [.bind false "b", .bind false "e"]) (.bool true) (.seq (.assign (.field (.path
      "self") "state") (.con "EndStateTill::Error" [.path "b", .path "e"])) (.con "None" [])), .mk (.con
      "State::Incomplete" [.bind false "n"]) (.bool true) (.seq (.assign (.field (.path "self") "state") (.con
      "EndStateTill::Incomplete" [.path "n"])) (.con "None" []))])
  byMut := true

/-- `RangeTo::many_till`, src/combinators/bounded.rs:533-578. -/
def RangeTo_many_till : Fn where
  params := [.bind false "self", .bind false "i", .bind false "p", .bind false "end"]
  body :=
    .letIn (.bind true "iter") (.strct "IterTill of RangeTo::many_till" ["state", "parser", "end", "buf",
      "data", "_t"] [.con "EndStateTill::Incomplete" [.num 1], .path "p", .path "end", .path "i", .bin .sub
      (.call (.path "max") [.field (.path "self") "end", .num 1]) (.num 1), .con "PhantomData" []]) (.letIn
      (.tuple [.bind false "result", .bind false "state"]) (.letIn (.bind true "item") (.bool false) (.letIn
      (.bind false "result") (.call (.path "FromIterator::from_iter") [.method (.method (.path "iter") "by_ref"
      []) "inspect" [.closure [.wild] (.assign (.path "item") (.bool true))]]) (.tuple [.path "result", .method
      (.path "iter") "end_state" []]))) (.mtch (.path "state") [.mk (.tuple [.bind false "s", .num 0, .con
      "EndStateTill::EndSuccess" []]) (.bool true) (.method (.path "s") "ret" [.path "result"]), .mk (.tuple
      [.bind false "s", .wild, .con "EndStateTill::Error" [.bind false "b", .bind false "e"]]) (.bool true)
      (.method (.method (.path "s") "replace" [.path "b"]) "err" [.path "e"]), .mk (.tuple [.bind false "s",
      .wild, .con "EndStateTill::Incomplete" [.bind false "n"]]) (.bool true) (.method (.path "s") "incomplete"
      [.path "n"]), .mk (.tuple [.wild, .wild, .con "EndStateTill::EndSuccess" []]) (.bool true) .panic]))

/-- `end_state` of `Iter`, src/combinators/macros.rs:84-86, as expanded in `usize::parse_many`, src/combinators/bounded.rs. -/
def usize_parse_many_end_state : Fn where
  params := [.bind false "self"]
  body :=
    .tuple [.field (.path "self") "buf", .field (.path "self") "data", .field (.path "self") "state"]

/-- `size_hint` of `Iter`, src/combinators/macros.rs:97-99, as expanded in `usize::parse_many`, src/combinators/bounded.rs. -/
def usize_parse_many_size_hint : Fn where
  params := [.bind false "self"]
  body :=
    .tuple [.field (.path "self") "data", .con "Some" [.field (.path "self") "data"]]

/-- `next` of `Iter`, src/combinators/macros.rs:102-124, as expanded in `usize::parse_many`, src/combinators/bounded.rs. -/
def usize_parse_many_next : Fn where
  params := [.bind false "self"]
  body :=
    .seq (.ite (.bin .eq (.field (.path "self") "data") (.num 0)) (.seq (.ret (.con "None" [])) (.tuple []))
      (.tuple [])) (.mtch (.method (.call (.field (.path "self") "parser") [.method (.field (.path "self")
      "buf") "clone" []]) "into_inner" []) [.mk (.con "State::Data" [.bind false "b", .bind false "v"]) (.bool
      true) (.seq (.assign (.field (.path "self") "buf") (.path "b")) (.seq (.seq (.assign (.field (.path
      "self") "data") (.bin .sub (.field (.path "self") "data") (.num 1))) (.tuple [])) (.con "Some" [.path
      "v"]))), .mk (.con "State::Error" [.bind false "b", .bind false "e"]) (.bool true) (.seq (.assign (.field
      (.path "self") "state") (.con "EndState::Error" [.path "b", .path "e"])) (.con "None" [])), .mk (.con
      "State::Incomplete" [.bind false "n"]) (.bool true) (.seq (.assign (.field (.path "self") "state") (.con
      "EndState::Incomplete" [.path "n"])) (.con "None" []))])
  byMut := true

/-- `usize::parse_many`, src/combinators/bounded.rs:583-618. -/
def usize_parse_many : Fn where
  params := [.bind false "self", .bind false "i", .bind false "f"]
  body :=
    .letIn (.bind true "iter") (.strct "Iter of usize::parse_many" ["state", "parser", "buf", "data", "_t"]
      [.con "EndState::Incomplete" [.num 1], .path "f", .path "i", .path "self", .con "PhantomData" []]) (.letIn
      (.tuple [.bind false "result", .bind false "state"]) (.letIn (.bind true "item") (.bool false) (.letIn
      (.bind false "result") (.call (.path "FromIterator::from_iter") [.method (.method (.path "iter") "by_ref"
      []) "inspect" [.closure [.wild] (.assign (.path "item") (.bool true))]]) (.tuple [.path "result", .method
      (.path "iter") "end_state" []]))) (.mtch (.path "state") [.mk (.tuple [.bind false "s", .num 0, .wild])
      (.bool true) (.method (.path "s") "ret" [.path "result"]), .mk (.tuple [.bind false "s", .wild, .con
      "EndState::Error" [.bind false "b", .bind false "e"]]) (.bool true) (.method (.method (.path "s")
      "replace" [.path "b"]) "err" [.path "e"]), .mk (.tuple [.bind false "s", .wild, .con
      "EndState::Incomplete" [.bind false "n"]]) (.bool true) (.method (.path "s") "incomplete" [.path "n"])]))

/-- `usize::skip_many`, src/combinators/bounded.rs:621-652. -/
def usize_skip_many : Fn where
  params := [.bind false "self", .bind false "i", .bind false "f"]
  body :=
    .letIn (.bind true "i") (.path "i") (.letIn (.bind true "f") (.path "f") (.letIn (.bind true "n") (.path
      "self") (.seq (.loop (.seq (.ite (.bin .eq (.path "n") (.num 0)) (.seq .brk (.tuple [])) (.tuple []))
      (.mtch (.method (.call (.path "f") [.method (.path "i") "clone" []]) "into_inner" []) [.mk (.con
      "State::Data" [.bind false "b", .wild]) (.bool true) (.seq (.assign (.path "n") (.bin .sub (.path "n")
      (.num 1))) (.assign (.path "i") (.path "b"))), .mk (.con "State::Error" [.bind false "b", .bind false
      "e"]) (.bool true) (.ite (.bin .eq (.path "n") (.num 0)) (.seq .brk (.tuple [])) (.seq (.ret (.method
      (.method (.path "i") "replace" [.path "b"]) "err" [.path "e"])) (.tuple []))), .mk (.con
      "State::Incomplete" [.bind false "n"]) (.bool true) (.ite (.bin .eq (.path "n") (.num 0)) (.seq .brk
      (.tuple [])) (.seq (.ret (.method (.path "i") "incomplete" [.path "n"])) (.tuple [])))]))) (.method (.path
      "i") "ret" [.tuple []]))))

/-- `end_state` of `IterTill`, src/combinators/macros.rs:197-199, as expanded in `usize::many_till`, src/combinators/bounded.rs. -/
def usize_many_till_end_state : Fn where
  params := [.bind false "self"]
  body :=
    .tuple [.field (.path "self") "buf", .field (.path "self") "data", .field (.path "self") "state"]

/-- `size_hint` of `IterTill`, src/combinators/macros.rs:213-215, as expanded in `usize::many_till`, src/combinators/bounded.rs. -/
def usize_many_till_size_hint : Fn where
  params := [.bind false "self"]
  body :=
    .tuple [.field (.path "self") "data", .con "Some" [.field (.path "self") "data"]]

/-- `next` of `IterTill`, src/combinators/macros.rs:218-240, as expanded in `usize::many_till`, src/combinators/bounded.rs. -/
def usize_many_till_next : Fn where
  params := [.bind false "self"]
  body :=
    .seq (.ite (.bin .eq (.field (.path "self") "data") (.num 0)) (.seq (.mtch (.method (.call (.field (.path
      "self") "end") [.method (.field (.path "self") "buf") "clone" []]) "into_inner" []) [.mk (.con
      "State::Data" [.bind false "b", .wild]) (.bool true) (.seq (.assign (.field (.path "self") "buf") (.path
      "b")) (.seq (.assign (.field (.path "self") "state") (.con "EndStateTill::EndSuccess" [])) (.ret (.con
      "None" [])))), .mk .wild (.bool true) (.tuple [])]) (.seq (.ret (.con "None" [])) (.tuple []))) (.tuple
      [])) (.mtch (.method (.call (.field (.path "self") "parser") [.method (.field (.path "self") "buf")
      "clone" []]) "into_inner" []) [.mk (.con "State::Data" [.bind false "b", .bind false "v"]) (.bool true)
      (.seq (.assign (.field (.path "self") "buf") (.path "b")) (.seq (.seq (.assign (.field (.path "self")
      "data") (.bin .sub (.field (.path "self") "data") (.num 1))) (.tuple [])) (.con "Some" [.path "v"]))), .mk
      (.con "State::Error" [.bind false "b", .bind false "e"]) (.bool true) (.seq (.assign (.field (.path
      "self") "state") (.con "EndStateTill::Error" [.path "b", .path "e"])) (.con "None" [])), .mk (.con
      "State::Incomplete" [.bind false "n"]) (.bool true) (.seq (.assign (.field (.path "self") "state") (.con
      "EndStateTill::Incomplete" [.path "n"])) (.con "None" []))])
  byMut := true

/-- `usize::many_till`, src/combinators/bounded.rs:655-698. -/
def usize_many_till : Fn where
  params := [.bind false "self", .bind false "i", .bind false "p", .bind false "end"]
  body :=
    .letIn (.bind true "iter") (.strct "IterTill of usize::many_till" ["state", "parser", "end", "buf", "data",
      "_t"] [.con "EndStateTill::Incomplete" [.num 1], .path "p", .path "end", .path "i", .path "self", .con
      "PhantomData" []]) (.letIn (.tuple [.bind false "result", .bind false "state"]) (.letIn (.bind true
      "item") (.bool false) (.letIn (.bind false "result") (.call (.path "FromIterator::from_iter") [.method
      (.method (.path "iter") "by_ref" []) "inspect" [.closure [.wild] (.assign (.path "item") (.bool true))]])
      (.tuple [.path "result", .method (.path "iter") "end_state" []]))) (.mtch (.path "state") [.mk (.tuple
      [.bind false "s", .num 0, .con "EndStateTill::EndSuccess" []]) (.bool true) (.method (.path "s") "ret"
      [.path "result"]), .mk (.tuple [.bind false "s", .wild, .con "EndStateTill::Error" [.bind false "b", .bind
      false "e"]]) (.bool true) (.method (.method (.path "s") "replace" [.path "b"]) "err" [.path "e"]), .mk
      (.tuple [.bind false "s", .wild, .con "EndStateTill::Incomplete" [.bind false "n"]]) (.bool true) (.method
      (.path "s") "incomplete" [.path "n"]), .mk (.tuple [.wild, .wild, .con "EndStateTill::EndSuccess" []])
      (.bool true) .panic]))

/-- `bounded::many`, src/combinators/bounded.rs:717-724. -/
def bounded_many : Fn where
  params := [.bind false "i", .bind false "r", .bind false "f"]
  body :=
    .method (.path "r") "parse_many" [.path "i", .path "f"]

/-- `bounded::skip_many`, src/combinators/bounded.rs:741-746. -/
def bounded_skip_many : Fn where
  params := [.bind false "i", .bind false "r", .bind false "f"]
  body :=
    .method (.path "r") "skip_many" [.path "i", .path "f"]

/-- `bounded::many_till`, src/combinators/bounded.rs:763-773. -/
def bounded_many_till : Fn where
  params := [.bind false "i", .bind false "r", .bind false "p", .bind false "end"]
  body :=
    .method (.path "r") "many_till" [.path "i", .path "p", .path "end"]

/-- `count`, src/combinators/mod.rs:34-40. -/
def count : Fn where
  params := [.bind false "i", .bind false "num", .bind false "p"]
  body :=
    .call (.path "bounded::many") [.path "i", .path "num", .path "p"]

/-- `option`, src/combinators/mod.rs:58-70. -/
def option : Fn where
  params := [.bind false "i", .bind false "f", .bind false "default"]
  body :=
    .mtch (.method (.call (.path "f") [.method (.path "i") "clone" []]) "into_inner" []) [.mk (.con
      "State::Data" [.bind false "b", .bind false "d"]) (.bool true) (.method (.path "b") "ret" [.path "d"]),
      .mk (.con "State::Error" [.wild, .wild]) (.bool true) (.method (.path "i") "ret" [.path "default"]), .mk
      (.con "State::Incomplete" [.bind false "n"]) (.bool true) (.ite (.method (.path "i") "is_last_slice" [])
      (.method (.path "i") "ret" [.path "default"]) (.method (.path "i") "incomplete" [.path "n"]))]

/-- `or`, src/combinators/mod.rs:94-106. -/
def or : Fn where
  params := [.bind false "i", .bind false "f", .bind false "g"]
  body :=
    .mtch (.method (.call (.path "f") [.method (.path "i") "clone" []]) "into_inner" []) [.mk (.con
      "State::Data" [.bind false "b", .bind false "d"]) (.bool true) (.method (.path "b") "ret" [.path "d"]),
      .mk (.con "State::Error" [.wild, .wild]) (.bool true) (.call (.path "g") [.path "i"]), .mk (.con
      "State::Incomplete" [.bind false "n"]) (.bool true) (.ite (.method (.path "i") "is_last_slice" []) (.call
      (.path "g") [.path "i"]) (.method (.path "i") "incomplete" [.path "n"]))]

/-- `many`, src/combinators/mod.rs:128-134. -/
def many : Fn where
  params := [.bind false "i", .bind false "f"]
  body :=
    .call (.path "bounded::many") [.path "i", .con "RangeFull" [], .path "f"]

/-- `many1`, src/combinators/mod.rs:157-163. -/
def many1 : Fn where
  params := [.bind false "i", .bind false "f"]
  body :=
    .call (.path "bounded::many") [.path "i", .con "RangeFrom" [.num 1], .path "f"]

/-- `sep_by`, src/combinators/mod.rs:182-203. -/
def sep_by : Fn where
  params := [.bind false "i", .bind false "p", .bind false "sep"]
  body :=
    .letIn (.bind true "p") (.path "p") (.letIn (.bind true "sep") (.path "sep") (.letIn (.bind true "item")
      (.bool false) (.letIn (.bind false "parser") (.closure [.bind false "i"] (.method (.method (.ite (.path
      "item") (.method (.call (.path "sep") [.path "i"]) "map" [.closure [.wild] (.tuple [])]) (.method (.path
      "i") "ret" [.tuple []])) "then" [.refMut (.path "p")]) "inspect" [.closure [.wild] (.assign (.path "item")
      (.bool true))])) (.call (.path "bounded::many") [.path "i", .con "RangeFull" [], .path "parser"]))))

/-- `sep_by1`, src/combinators/mod.rs:223-244. -/
def sep_by1 : Fn where
  params := [.bind false "i", .bind false "p", .bind false "sep"]
  body :=
    .letIn (.bind true "p") (.path "p") (.letIn (.bind true "sep") (.path "sep") (.letIn (.bind true "item")
      (.bool false) (.letIn (.bind false "parser") (.closure [.bind false "i"] (.method (.method (.ite (.path
      "item") (.method (.call (.path "sep") [.path "i"]) "map" [.closure [.wild] (.tuple [])]) (.method (.path
      "i") "ret" [.tuple []])) "then" [.refMut (.path "p")]) "inspect" [.closure [.wild] (.assign (.path "item")
      (.bool true))])) (.call (.path "bounded::many") [.path "i", .con "RangeFrom" [.num 1], .path "parser"]))))

/-- `many_till`, src/combinators/mod.rs:261-270. -/
def many_till : Fn where
  params := [.bind false "i", .bind false "p", .bind false "end"]
  body :=
    .call (.path "bounded::many_till") [.path "i", .con "RangeFull" [], .path "p", .path "end"]

/-- `skip_many`, src/combinators/mod.rs:287-291. -/
def skip_many : Fn where
  params := [.bind false "i", .bind false "f"]
  body :=
    .call (.path "bounded::skip_many") [.path "i", .con "RangeFull" [], .path "f"]

/-- `skip_many1`, src/combinators/mod.rs:314-317. -/
def skip_many1 : Fn where
  params := [.bind false "i", .bind false "f"]
  body :=
    .call (.path "bounded::skip_many") [.path "i", .con "RangeFrom" [.num 1], .path "f"]

/-- `matched_by`, src/combinators/mod.rs:328-344. -/
def matched_by : Fn where
  params := [.bind false "i", .bind false "f"]
  body :=
    .letIn (.bind false "buf") (.method (.path "i") "buffer" []) (.mtch (.method (.call (.path "f") [.method
      (.path "i") "clone" []]) "into_inner" []) [.mk (.con "State::Data" [.bind false "b", .bind false "t"])
      (.bool true) (.letIn (.bind false "diff") (.bin .sub (.method (.path "buf") "len" []) (.method (.method
      (.path "b") "buffer" []) "len" [])) (.letIn (.bind false "n") (.ref (.index (.path "buf") (.con "RangeTo"
      [.path "diff"]))) (.method (.path "b") "ret" [.tuple [.path "n", .path "t"]]))), .mk (.con "State::Error"
      [.bind false "b", .bind false "e"]) (.bool true) (.method (.method (.path "i") "replace" [.path "b"])
      "err" [.path "e"]), .mk (.con "State::Incomplete" [.bind false "n"]) (.bool true) (.method (.path "i")
      "incomplete" [.path "n"])])

/-- `look_ahead`, src/combinators/mod.rs:357-364. -/
def look_ahead : Fn where
  params := [.bind false "i", .bind false "f"]
  body :=
    .mtch (.method (.call (.path "f") [.method (.path "i") "clone" []]) "into_inner" []) [.mk (.con
      "State::Data" [.wild, .bind false "t"]) (.bool true) (.method (.path "i") "ret" [.path "t"]), .mk (.con
      "State::Error" [.bind false "b", .bind false "t"]) (.bool true) (.method (.method (.path "i") "replace"
      [.path "b"]) "err" [.path "t"]), .mk (.con "State::Incomplete" [.bind false "n"]) (.bool true) (.method
      (.path "i") "incomplete" [.path "n"])]

/-- `ReadDataSource::new`, src/buffer/data_source.rs:32-34. -/
def ReadDataSource_new : Fn where
  params := [.bind false "inner"]
  body :=
    .con "ReadDataSource" [.path "inner"]

/-- `ReadDataSource::into_inner`, src/buffer/data_source.rs:38-40. -/
def ReadDataSource_into_inner : Fn where
  params := [.bind false "self"]
  body :=
    .field (.path "self") "0"

/-- `ReadDataSource::read`, src/buffer/data_source.rs:47-49. -/
def ReadDataSource_read : Fn where
  params := [.bind false "self", .bind false "buffer"]
  body :=
    .method (.field (.path "self") "0") "read" [.path "buffer"]
  byMut := true

/-- `IteratorDataSource::new`, src/buffer/data_source.rs:60-62. -/
def IteratorDataSource_new : Fn where
  params := [.bind false "inner"]
  body :=
    .con "IteratorDataSource" [.path "inner"]

/-- `IteratorDataSource::into_inner`, src/buffer/data_source.rs:66-68. -/
def IteratorDataSource_into_inner : Fn where
  params := [.bind false "self"]
  body :=
    .field (.path "self") "0"

/-- `IteratorDataSource::read`, src/buffer/data_source.rs:75-89. -/
def IteratorDataSource_read : Fn where
  params := [.bind false "self", .bind false "buffer"]
  body :=
    .letIn (.bind true "n") (.num 0) (.seq (.loop (.ite (.bin .gt (.method (.path "buffer") "len" []) (.path
      "n")) (.seq (.mtch (.method (.field (.path "self") "0") "next" []) [.mk (.con "Some" [.bind false "i"])
      (.bool true) (.seq (.assignIndex (.path "buffer") (.path "n") (.path "i")) (.tuple [])), .mk .wild (.bool
      true) (.seq .brk (.tuple []))]) (.seq (.assign (.path "n") (.bin .add (.path "n") (.num 1))) (.tuple [])))
      .brk)) (.con "Ok" [.path "n"]))
  byMut := true

/-- `Buffer::is_empty`, src/buffer/buffer.rs:48-50. -/
def Buffer_is_empty : Fn where
  params := [.bind false "self"]
  body :=
    .bin .eq (.method (.path "self") "len" []) (.num 0)

/-- `FixedSizeBuffer::new`, src/buffer/buffer.rs:76-78. -/
def FixedSizeBuffer_new : Fn where
  params := []
  body :=
    .call (.path "FixedSizeBuffer::with_size") [.bin .mul (.num 6) (.num 1024)]

/-- `FixedSizeBuffer::with_size`, src/buffer/buffer.rs:82-101. -/
def FixedSizeBuffer_with_size : Fn where
  params := [.bind false "size"]
  body :=
    .seq (.ite (.bin .gt (.path "size") (.num 0)) (.tuple []) .panic) (.letIn (.bind true "buf") (.call (.path
      "Vec::with_capacity") [.path "size"]) (.seq (.seq (.method (.path "buf") "set_len" [.path "size"]) (.tuple
      [])) (.strct "FixedSizeBuffer" ["buffer", "populated", "used"] [.path "buf", .num 0, .call (.path
      "Cell::new") [.num 0]])))

/-- `FixedSizeBuffer::deref`, src/buffer/buffer.rs:108-110. -/
def FixedSizeBuffer_deref : Fn where
  params := [.bind false "self"]
  body :=
    .ref (.index (.field (.path "self") "buffer") (.con "Range" [.method (.field (.path "self") "used") "get"
      [], .field (.path "self") "populated"]))

/-- `FixedSizeBuffer::deref_mut`, src/buffer/buffer.rs:115-117. -/
def FixedSizeBuffer_deref_mut : Fn where
  params := [.bind false "self"]
  body :=
    .refMutIndex (.field (.path "self") "buffer") (.con "Range" [.method (.field (.path "self") "used") "get"
      [], .field (.path "self") "populated"])
  byMut := true

/-- `FixedSizeBuffer::fill`, src/buffer/buffer.rs:122-130. -/
def FixedSizeBuffer_fill : Fn where
  params := [.bind false "self", .bind false "s"]
  body :=
    .method (.method (.path "s") "read" [.refMutIndex (.field (.path "self") "buffer") (.con "RangeFrom" [.field
      (.path "self") "populated"])]) "map" [.closure [.bind false "n"] (.seq (.ite (.path "debug_assertions")
      (.ite (.bin .le (.bin .add (.field (.path "self") "populated") (.path "n")) (.method (.field (.path
      "self") "buffer") "len" [])) (.tuple []) .panic) (.tuple [])) (.seq (.assign (.field (.path "self")
      "populated") (.bin .add (.field (.path "self") "populated") (.path "n"))) (.path "n")))]
  byMut := true

/-- `FixedSizeBuffer::request_space`, src/buffer/buffer.rs:133-147. -/
def FixedSizeBuffer_request_space : Fn where
  params := [.bind false "self", .bind false "items"]
  body :=
    .seq (.ite (.bin .ge (.field (.path "self") "populated") (.method (.field (.path "self") "used") "get" []))
      (.tuple []) .panic) (.ite (.bin .lt (.bin .sub (.method (.field (.path "self") "buffer") "len" []) (.field
      (.path "self") "populated")) (.path "items")) (.seq (.seq (.call (.path "ptr::copy") [.method (.method
      (.field (.path "self") "buffer") "as_ptr" []) "offset" [.method (.field (.path "self") "used") "get" []],
      .method (.field (.path "self") "buffer") "as_mut_ptr" [], .bin .sub (.field (.path "self") "populated")
      (.method (.field (.path "self") "used") "get" [])]) (.tuple [])) (.seq (.assign (.field (.path "self")
      "populated") (.bin .sub (.field (.path "self") "populated") (.method (.field (.path "self") "used") "get"
      []))) (.seq (.method (.field (.path "self") "used") "set" [.num 0]) (.tuple [])))) (.tuple []))
  byMut := true

/-- `FixedSizeBuffer::consume`, src/buffer/buffer.rs:150-154. -/
def FixedSizeBuffer_consume : Fn where
  params := [.bind false "self", .bind false "items"]
  body :=
    .seq (.ite (.path "debug_assertions") (.ite (.bin .le (.bin .add (.method (.field (.path "self") "used")
      "get" []) (.path "items")) (.field (.path "self") "populated")) (.tuple []) .panic) (.tuple [])) (.method
      (.field (.path "self") "used") "set" [.bin .add (.method (.field (.path "self") "used") "get" []) (.path
      "items")])
  byMut := true

/-- `FixedSizeBuffer::len`, src/buffer/buffer.rs:157-159. -/
def FixedSizeBuffer_len : Fn where
  params := [.bind false "self"]
  body :=
    .bin .sub (.field (.path "self") "populated") (.method (.field (.path "self") "used") "get" [])

/-- `FixedSizeBuffer::capacity`, src/buffer/buffer.rs:162-164. -/
def FixedSizeBuffer_capacity : Fn where
  params := [.bind false "self"]
  body :=
    .method (.field (.path "self") "buffer") "len" []

/-- `GrowingBuffer::new`, src/buffer/buffer.rs:190-192. -/
def GrowingBuffer_new : Fn where
  params := []
  body :=
    .call (.path "GrowingBuffer::with_limit") [.num 0]

/-- `GrowingBuffer::with_limit`, src/buffer/buffer.rs:201-208. -/
def GrowingBuffer_with_limit : Fn where
  params := [.bind false "limit"]
  body :=
    .strct "GrowingBuffer" ["buffer", "populated", "limit", "used"] [.call (.path "Vec::new") [], .num 0, .path
      "limit", .call (.path "Cell::new") [.num 0]]

/-- `GrowingBuffer::deref`, src/buffer/buffer.rs:215-217. -/
def GrowingBuffer_deref : Fn where
  params := [.bind false "self"]
  body :=
    .ref (.index (.field (.path "self") "buffer") (.con "Range" [.method (.field (.path "self") "used") "get"
      [], .field (.path "self") "populated"]))

/-- `GrowingBuffer::deref_mut`, src/buffer/buffer.rs:222-224. -/
def GrowingBuffer_deref_mut : Fn where
  params := [.bind false "self"]
  body :=
    .refMutIndex (.field (.path "self") "buffer") (.con "Range" [.method (.field (.path "self") "used") "get"
      [], .field (.path "self") "populated"])
  byMut := true

/-- `GrowingBuffer::fill`, src/buffer/buffer.rs:229-237. -/
def GrowingBuffer_fill : Fn where
  params := [.bind false "self", .bind false "s"]
  body :=
    .method (.method (.path "s") "read" [.refMutIndex (.field (.path "self") "buffer") (.con "RangeFrom" [.field
      (.path "self") "populated"])]) "map" [.closure [.bind false "n"] (.seq (.ite (.path "debug_assertions")
      (.ite (.bin .le (.bin .add (.field (.path "self") "populated") (.path "n")) (.method (.field (.path
      "self") "buffer") "len" [])) (.tuple []) .panic) (.tuple [])) (.seq (.assign (.field (.path "self")
      "populated") (.bin .add (.field (.path "self") "populated") (.path "n"))) (.path "n")))]
  byMut := true

/-- `GrowingBuffer::request_space`, src/buffer/buffer.rs:240-271. -/
def GrowingBuffer_request_space : Fn where
  params := [.bind false "self", .bind false "items"]
  body :=
    .seq (.ite (.and (.bin .ne (.field (.path "self") "limit") (.num 0)) (.bin .gt (.method (.field (.path
      "self") "buffer") "capacity" []) (.field (.path "self") "limit"))) (.seq (.ret (.tuple [])) (.tuple []))
      (.tuple [])) (.seq (.ite (.bin .gt (.bin .add (.path "items") (.method (.path "self") "len" [])) (.method
      (.field (.path "self") "buffer") "capacity" [])) (.seq (.method (.field (.path "self") "buffer") "reserve"
      [.path "items"]) (.letIn (.bind false "cap") (.method (.field (.path "self") "buffer") "capacity" [])
      (.seq (.method (.field (.path "self") "buffer") "set_len" [.path "cap"]) (.tuple [])))) (.tuple [])) (.ite
      (.bin .lt (.bin .sub (.method (.field (.path "self") "buffer") "len" []) (.field (.path "self")
      "populated")) (.path "items")) (.seq (.seq (.call (.path "ptr::copy") [.method (.method (.field (.path
      "self") "buffer") "as_ptr" []) "offset" [.method (.field (.path "self") "used") "get" []], .method (.field
      (.path "self") "buffer") "as_mut_ptr" [], .bin .sub (.field (.path "self") "populated") (.method (.field
      (.path "self") "used") "get" [])]) (.tuple [])) (.seq (.assign (.field (.path "self") "populated") (.bin
      .sub (.field (.path "self") "populated") (.method (.field (.path "self") "used") "get" []))) (.seq
      (.method (.field (.path "self") "used") "set" [.num 0]) (.tuple [])))) (.tuple [])))
  byMut := true

/-- `GrowingBuffer::consume`, src/buffer/buffer.rs:274-278. -/
def GrowingBuffer_consume : Fn where
  params := [.bind false "self", .bind false "items"]
  body :=
    .seq (.ite (.path "debug_assertions") (.ite (.bin .le (.bin .add (.method (.field (.path "self") "used")
      "get" []) (.path "items")) (.field (.path "self") "populated")) (.tuple []) .panic) (.tuple [])) (.method
      (.field (.path "self") "used") "set" [.bin .add (.method (.field (.path "self") "used") "get" []) (.path
      "items")])
  byMut := true

/-- `GrowingBuffer::len`, src/buffer/buffer.rs:281-283. -/
def GrowingBuffer_len : Fn where
  params := [.bind false "self"]
  body :=
    .bin .sub (.field (.path "self") "populated") (.method (.field (.path "self") "used") "get" [])

/-- `GrowingBuffer::capacity`, src/buffer/buffer.rs:286-288. -/
def GrowingBuffer_capacity : Fn where
  params := [.bind false "self"]
  body :=
    .method (.field (.path "self") "buffer") "len" []

/-- `StreamError::eq`, src/buffer/mod.rs:71-79. -/
def StreamError_eq : Fn where
  params := [.bind false "self", .bind false "other"]
  body :=
    .mtch (.tuple [.path "self", .path "other"]) [.mk (.tuple [.con "StreamError::ParseError" [.bind false "b1",
      .bind false "e1"], .con "StreamError::ParseError" [.bind false "b2", .bind false "e2"]]) (.bool true)
      (.and (.bin .eq (.path "b1") (.path "b2")) (.bin .eq (.path "e1") (.path "e2"))), .mk (.tuple [.con
      "StreamError::Incomplete" [.bind false "n1"], .con "StreamError::Incomplete" [.bind false "n2"]]) (.bool
      true) (.bin .eq (.path "n1") (.path "n2")), .mk (.tuple [.con "StreamError::EndOfInput" [], .con
      "StreamError::EndOfInput" []]) (.bool true) (.bool true), .mk (.tuple [.con "StreamError::Retry" [], .con
      "StreamError::Retry" []]) (.bool true) (.bool true), .mk .wild (.bool true) (.bool false)]

/-- `StreamError::from`, src/buffer/mod.rs:84-89. -/
def StreamError_from : Fn where
  params := [.bind false "e"]
  body :=
    .mtch (.path "e") [.mk (.con "ParseError::Error" [.bind false "b", .bind false "e"]) (.bool true) (.con
      "StreamError::ParseError" [.path "b", .path "e"]), .mk (.con "ParseError::Incomplete" [.bind false "n"])
      (.bool true) (.con "StreamError::Incomplete" [.path "n"])]

/-- `SliceStream::new`, src/buffer/slice.rs:51-56. -/
def SliceStream_new : Fn where
  params := [.bind false "slice"]
  body :=
    .strct "SliceStream" ["pos", "slice"] [.num 0, .path "slice"]

/-- `SliceStream::len`, src/buffer/slice.rs:60-62. -/
def SliceStream_len : Fn where
  params := [.bind false "self"]
  body :=
    .bin .sub (.method (.field (.path "self") "slice") "len" []) (.field (.path "self") "pos")

/-- `SliceStream::is_empty`, src/buffer/slice.rs:66-68. -/
def SliceStream_is_empty : Fn where
  params := [.bind false "self"]
  body :=
    .bin .eq (.method (.path "self") "len" []) (.num 0)

/-- `slice::into_stream`, src/buffer/slice.rs:76-78. -/
def slice_into_stream : Fn where
  params := [.bind false "self"]
  body :=
    .call (.path "SliceStream::new") [.path "self"]

/-- `SliceStream::parse`, src/buffer/slice.rs:85-109. -/
def SliceStream_parse : Fn where
  params := [.bind false "self", .bind false "f"]
  body :=
    .seq (.ite (.method (.path "self") "is_empty" []) (.seq (.ret (.con "Err" [.con "StreamError::EndOfInput"
      []])) (.tuple [])) (.tuple [])) (.mtch (.method (.call (.path "f") [.call (.path "input::new") [.path
      "input::END_OF_INPUT", .ref (.index (.field (.path "self") "slice") (.con "RangeFrom" [.field (.path
      "self") "pos"]))]]) "into_inner" []) [.mk (.con "State::Data" [.bind false "remainder", .bind false
      "data"]) (.bool true) (.seq (.assign (.field (.path "self") "pos") (.bin .add (.field (.path "self")
      "pos") (.bin .sub (.method (.path "self") "len" []) (.method (.method (.path "remainder") "buffer" [])
      "len" [])))) (.con "Ok" [.path "data"])), .mk (.con "State::Error" [.bind false "remainder", .bind false
      "err"]) (.bool true) (.seq (.assign (.field (.path "self") "pos") (.bin .add (.field (.path "self") "pos")
      (.bin .sub (.method (.path "self") "len" []) (.method (.path "remainder") "len" [])))) (.con "Err" [.con
      "StreamError::ParseError" [.path "remainder", .path "err"]])), .mk (.con "State::Incomplete" [.bind false
      "n"]) (.bool true) (.con "Err" [.con "StreamError::Incomplete" [.bin .add (.path "n") (.method (.path
      "self") "len" [])]])])
  byMut := true

/-- `Source::new`, src/buffer/stateful.rs:46-48. -/
def Source_new : Fn where
  params := [.bind false "source"]
  body :=
    .call (.path "Source::with_buffer") [.call (.path "ReadDataSource::new") [.path "source"], .call (.path
      "FixedSizeBuffer::new") []]

/-- `Source::from_read`, src/buffer/stateful.rs:54-56. -/
def Source_from_read : Fn where
  params := [.bind false "source", .bind false "buffer"]
  body :=
    .call (.path "Source::with_buffer") [.call (.path "ReadDataSource::new") [.path "source"], .path "buffer"]

/-- `Source::from_iter`, src/buffer/stateful.rs:62-64. -/
def Source_from_iter : Fn where
  params := [.bind false "source", .bind false "buffer"]
  body :=
    .call (.path "Source::with_buffer") [.call (.path "IteratorDataSource::new") [.path "source"], .path
      "buffer"]

/-- `Source::with_buffer`, src/buffer/stateful.rs:70-77. -/
def Source_with_buffer : Fn where
  params := [.bind false "source", .bind false "buffer"]
  body :=
    .strct "Source" ["source", "buffer", "request", "state"] [.path "source", .path "buffer", .num 0, .bin
      .bitor (.con "ParserState" [.num 1]) (.con "ParserState" [.num 4])]

/-- `Source::fill_requested`, src/buffer/stateful.rs:81-101. -/
def Source_fill_requested : Fn where
  params := [.bind false "self", .bind false "request"]
  body :=
    .letIn (.bind true "read") (.num 0) (.letIn (.bind true "buffer") (.refMut (.field (.path "self") "buffer"))
      (.letIn (.bind false "source") (.refMut (.field (.path "self") "source")) (.seq (.ite (.bin .lt (.method
      (.path "buffer") "len" []) (.path "request")) (.letIn (.bind false "diff") (.bin .sub (.path "request")
      (.method (.path "buffer") "len" [])) (.seq (.method (.path "buffer") "request_space" [.path "diff"])
      (.loop (.ite (.bin .lt (.method (.path "buffer") "len" []) (.path "request")) (.mtch (.mtch (.method
      (.path "buffer") "fill" [.path "source"]) [.mk (.con "Ok" [.bind false "val"]) (.bool true) (.path "val"),
      .mk (.con "Err" [.bind false "err"]) (.bool true) (.ret (.con "Err" [.call (.path "<E as From<E>>::from")
      [.path "err"]]))]) [.mk (.num 0) (.bool true) .brk, .mk (.bind false "n") (.bool true) (.assign (.path
      "read") (.bin .add (.path "read") (.path "n")))]) .brk)))) (.tuple [])) (.con "Ok" [.path "read"]))))
  byMut := true

/-- `Source::fill`, src/buffer/stateful.rs:105-120. -/
def Source_fill : Fn where
  params := [.bind false "self"]
  body :=
    .letIn (.bind false "req") (.call (.path "cmp::max") [.num 1, .field (.path "self") "request"]) (.method
      (.method (.path "self") "fill_requested" [.path "req"]) "map" [.closure [.bind false "n"] (.seq (.method
      (.field (.path "self") "state") "remove" [.con "ParserState" [.num 1]]) (.seq (.ite (.bin .ge (.method
      (.field (.path "self") "buffer") "len" []) (.path "req")) (.seq (.method (.field (.path "self") "state")
      "remove" [.con "ParserState" [.num 2]]) (.tuple [])) (.seq (.method (.field (.path "self") "state")
      "insert" [.con "ParserState" [.num 2]]) (.tuple []))) (.path "n")))])
  byMut := true

/-- `Source::len`, src/buffer/stateful.rs:124-126. -/
def Source_len : Fn where
  params := [.bind false "self"]
  body :=
    .method (.field (.path "self") "buffer") "len" []

/-- `Source::is_empty`, src/buffer/stateful.rs:130-132. -/
def Source_is_empty : Fn where
  params := [.bind false "self"]
  body :=
    .and (.method (.field (.path "self") "state") "contains" [.con "ParserState" [.num 2]]) (.bin .eq (.method
      (.path "self") "len" []) (.num 0))

/-- `Source::capacity`, src/buffer/stateful.rs:138-140. -/
def Source_capacity : Fn where
  params := [.bind false "self"]
  body :=
    .method (.field (.path "self") "buffer") "capacity" []

/-- `Source::buffer`, src/buffer/stateful.rs:144-146. -/
def Source_buffer : Fn where
  params := [.bind false "self"]
  body :=
    .ref (.method (.field (.path "self") "buffer") "deref" [])

/-- `Source::reset`, src/buffer/stateful.rs:153-155. -/
def Source_reset : Fn where
  params := [.bind false "self"]
  body :=
    .seq (.assign (.field (.path "self") "state") (.call (.path "ParserState::empty") [])) (.tuple [])
  byMut := true

/-- `Source::set_autofill`, src/buffer/stateful.rs:161-167. -/
def Source_set_autofill : Fn where
  params := [.bind false "self", .bind false "value"]
  body :=
    .ite (.path "value") (.method (.field (.path "self") "state") "insert" [.con "ParserState" [.num 4]])
      (.method (.field (.path "self") "state") "remove" [.con "ParserState" [.num 4]])
  byMut := true

/-- `Source::read`, src/buffer/stateful.rs:172-182. -/
def Source_read : Fn where
  params := [.bind false "self", .bind false "buf"]
  body :=
    .seq (.ite (.bin .gt (.method (.path "buf") "len" []) (.method (.path "self") "len" [])) (.seq (.mtch
      (.method (.path "self") "fill_requested" [.method (.path "buf") "len" []]) [.mk (.con "Ok" [.bind false
      "val"]) (.bool true) (.path "val"), .mk (.con "Err" [.bind false "err"]) (.bool true) (.ret (.con "Err"
      [.call (.path "<E as From<E>>::from") [.path "err"]]))]) (.tuple [])) (.tuple [])) (.method (.method (.ref
      (.index (.method (.field (.path "self") "buffer") "deref" []) (.con "RangeFull" []))) "read" [.path
      "buf"]) "map" [.closure [.bind false "n"] (.seq (.method (.field (.path "self") "buffer") "consume" [.path
      "n"]) (.path "n"))])
  byMut := true

/-- `Source::fill_buf`, src/buffer/stateful.rs:187-193. -/
def Source_fill_buf : Fn where
  params := [.bind false "self"]
  body :=
    .letIn (.bind false "cap") (.method (.field (.path "self") "buffer") "capacity" []) (.seq (.mtch (.method
      (.path "self") "fill_requested" [.path "cap"]) [.mk (.con "Ok" [.bind false "val"]) (.bool true) (.path
      "val"), .mk (.con "Err" [.bind false "err"]) (.bool true) (.ret (.con "Err" [.call (.path
      "<E as From<E>>::from") [.path "err"]]))]) (.con "Ok" [.method (.path "self") "buffer" []]))
  byMut := true

/-- `Source::consume`, src/buffer/stateful.rs:196-198. -/
def Source_consume : Fn where
  params := [.bind false "self", .bind false "num"]
  body :=
    .method (.field (.path "self") "buffer") "consume" [.path "num"]
  byMut := true

/-- `Source::parse`, src/buffer/stateful.rs:206-246. -/
def Source_parse : Fn where
  params := [.bind false "self", .bind false "f"]
  body :=
    .seq (.ite (.method (.field (.path "self") "state") "contains" [.bin .bitor (.con "ParserState" [.num 1])
      (.con "ParserState" [.num 4])]) (.seq (.mtch (.method (.method (.path "self") "fill" []) "map_err" [.con
      "StreamError::IoError" []]) [.mk (.con "Ok" [.bind false "val"]) (.bool true) (.path "val"), .mk (.con
      "Err" [.bind false "err"]) (.bool true) (.ret (.con "Err" [.call (.path "<E as From<E>>::from") [.path
      "err"]]))]) (.tuple [])) (.tuple [])) (.seq (.ite (.method (.path "self") "is_empty" []) (.seq (.ret (.con
      "Err" [.con "StreamError::EndOfInput" []])) (.tuple [])) (.tuple [])) (.letIn (.bind false "input_state")
      (.ite (.method (.field (.path "self") "state") "contains" [.con "ParserState" [.num 2]]) (.path
      "input::END_OF_INPUT") (.path "input::DEFAULT")) (.mtch (.method (.call (.path "f") [.call (.path
      "input::new") [.path "input_state", .ref (.method (.field (.path "self") "buffer") "deref" [])]])
      "into_inner" []) [.mk (.con "State::Data" [.bind false "remainder", .bind false "data"]) (.bool true)
      (.seq (.method (.field (.path "self") "buffer") "consume" [.bin .sub (.method (.field (.path "self")
      "buffer") "len" []) (.method (.method (.path "remainder") "buffer" []) "len" [])]) (.con "Ok" [.path
      "data"])), .mk (.con "State::Error" [.bind false "remainder", .bind false "err"]) (.bool true) (.seq
      (.method (.field (.path "self") "buffer") "consume" [.bin .sub (.method (.field (.path "self") "buffer")
      "len" []) (.method (.path "remainder") "len" [])]) (.con "Err" [.con "StreamError::ParseError" [.path
      "remainder", .path "err"]])), .mk (.con "State::Incomplete" [.bind false "n"]) (.bool true) (.seq (.assign
      (.field (.path "self") "request") (.bin .add (.method (.field (.path "self") "buffer") "len" []) (.path
      "n"))) (.ite (.method (.field (.path "self") "state") "contains" [.con "ParserState" [.num 2]]) (.con
      "Err" [.con "StreamError::Incomplete" [.field (.path "self") "request"]]) (.seq (.method (.field (.path
      "self") "state") "insert" [.con "ParserState" [.num 1]]) (.con "Err" [.con "StreamError::Retry"
      []]))))])))
  byMut := true

/-- `http::is_token`, examples/http_parser.rs:35-59. -/
def http_is_token : Fn where
  params := [.bind false "c"]
  body :=
    .mtch (.path "c") [.mk (.bind false "x@") (.and (.bin .le (.byte 128) (.path "x@")) (.bin .le (.path "x@")
      (.byte 255))) (.bool false), .mk (.bind false "x@") (.and (.bin .le (.byte 0) (.path "x@")) (.bin .le
      (.path "x@") (.byte 31))) (.bool false), .mk (.bind false "x@") (.bin .eq (.path "x@") (.byte 40)) (.bool
      false), .mk (.bind false "x@") (.bin .eq (.path "x@") (.byte 41)) (.bool false), .mk (.bind false "x@")
      (.bin .eq (.path "x@") (.byte 60)) (.bool false), .mk (.bind false "x@") (.bin .eq (.path "x@") (.byte
      62)) (.bool false), .mk (.bind false "x@") (.bin .eq (.path "x@") (.byte 64)) (.bool false), .mk (.bind
      false "x@") (.bin .eq (.path "x@") (.byte 44)) (.bool false), .mk (.bind false "x@") (.bin .eq (.path
      "x@") (.byte 59)) (.bool false), .mk (.bind false "x@") (.bin .eq (.path "x@") (.byte 58)) (.bool false),
      .mk (.bind false "x@") (.bin .eq (.path "x@") (.byte 92)) (.bool false), .mk (.bind false "x@") (.bin .eq
      (.path "x@") (.byte 34)) (.bool false), .mk (.bind false "x@") (.bin .eq (.path "x@") (.byte 47)) (.bool
      false), .mk (.bind false "x@") (.bin .eq (.path "x@") (.byte 91)) (.bool false), .mk (.bind false "x@")
      (.bin .eq (.path "x@") (.byte 93)) (.bool false), .mk (.bind false "x@") (.bin .eq (.path "x@") (.byte
      63)) (.bool false), .mk (.bind false "x@") (.bin .eq (.path "x@") (.byte 61)) (.bool false), .mk (.bind
      false "x@") (.bin .eq (.path "x@") (.byte 123)) (.bool false), .mk (.bind false "x@") (.bin .eq (.path
      "x@") (.byte 125)) (.bool false), .mk (.bind false "x@") (.bin .eq (.path "x@") (.byte 32)) (.bool false),
      .mk .wild (.bool true) (.bool true)]

/-- `http::is_horizontal_space`, examples/http_parser.rs:61. -/
def http_is_horizontal_space : Fn where
  params := [.bind false "c"]
  body :=
    .or (.bin .eq (.path "c") (.byte 32)) (.bin .eq (.path "c") (.byte 9))

/-- `http::is_space`, examples/http_parser.rs:62. -/
def http_is_space : Fn where
  params := [.bind false "c"]
  body :=
    .bin .eq (.path "c") (.byte 32)

/-- `http::is_not_space`, examples/http_parser.rs:63. -/
def http_is_not_space : Fn where
  params := [.bind false "c"]
  body :=
    .bin .ne (.path "c") (.byte 32)

/-- `http::is_end_of_line`, examples/http_parser.rs:64. -/
def http_is_end_of_line : Fn where
  params := [.bind false "c"]
  body :=
    .or (.bin .eq (.path "c") (.byte 13)) (.bin .eq (.path "c") (.byte 10))

/-- `http::is_http_version`, examples/http_parser.rs:65. -/
def http_is_http_version : Fn where
  params := [.bind false "c"]
  body :=
    .or (.and (.bin .ge (.path "c") (.byte 48)) (.bin .le (.path "c") (.byte 57))) (.bin .eq (.path "c") (.byte
      46))

/-- `http::end_of_line`, examples/http_parser.rs:67-73. -/
def http_end_of_line : Fn where
  params := [.bind false "i"]
  body :=
    .call (.path "or") [.path "i", .closure [.bind false "i"] (.method (.call (.path "token") [.path "i", .byte
      13]) "bind" [.closure [.bind false "i@", .wild] (.method (.call (.path "token") [.path "i@", .byte 10])
      "bind" [.closure [.bind false "i@", .wild] (.method (.path "i@") "ret" [.byte 13])])]), .closure [.bind
      false "i"] (.call (.path "token") [.path "i", .byte 10])]

/-- `http::http_version`, examples/http_parser.rs:75-80. -/
def http_http_version : Fn where
  params := [.bind false "i"]
  body :=
    .method (.call (.path "string") [.path "i", .call (.path "bytes!") [.byte 72, .byte 84, .byte 84, .byte 80,
      .byte 47]]) "bind" [.closure [.bind false "i@", .wild] (.call (.path "take_while1") [.path "i@", .path
      "http::is_http_version"])]

/-- `http::request_line`, examples/http_parser.rs:82-96. -/
def http_request_line : Fn where
  params := [.bind false "i"]
  body :=
    .method (.call (.path "take_while1") [.path "i", .path "http::is_token"]) "bind" [.closure [.bind false
      "i@", .bind false "method"] (.method (.call (.path "take_while1") [.path "i@", .path "http::is_space"])
      "bind" [.closure [.bind false "i@", .wild] (.method (.call (.path "take_while1") [.path "i@", .path
      "http::is_not_space"]) "bind" [.closure [.bind false "i@", .bind false "uri"] (.method (.call (.path
      "take_while1") [.path "i@", .path "http::is_space"]) "bind" [.closure [.bind false "i@", .wild] (.method
      (.call (.path "http::http_version") [.path "i@"]) "bind" [.closure [.bind false "i@", .bind false
      "version"] (.method (.path "i@") "ret" [.strct "Request" ["method", "uri", "version"] [.path "method",
      .path "uri", .path "version"]])])])])])]

/-- `http::message_header_line`, examples/http_parser.rs:98-106. -/
def http_message_header_line : Fn where
  params := [.bind false "i"]
  body :=
    .method (.call (.path "take_while1") [.path "i", .path "http::is_horizontal_space"]) "bind" [.closure [.bind
      false "i@", .wild] (.method (.call (.path "take_till") [.path "i@", .path "http::is_end_of_line"]) "bind"
      [.closure [.bind false "i@", .bind false "line"] (.method (.call (.path "http::end_of_line") [.path "i@"])
      "bind" [.closure [.bind false "i@", .wild] (.method (.path "i@") "ret" [.path "line"])])])]

/-- `http::message_header`, examples/http_parser.rs:108-119. -/
def http_message_header : Fn where
  params := [.bind false "i"]
  body :=
    .method (.call (.path "take_while1") [.path "i", .path "http::is_token"]) "bind" [.closure [.bind false
      "i@", .bind false "name"] (.method (.call (.path "token") [.path "i@", .byte 58]) "bind" [.closure [.bind
      false "i@", .wild] (.method (.call (.path "many1") [.path "i@", .path "http::message_header_line"]) "bind"
      [.closure [.bind false "i@", .bind false "lines"] (.method (.path "i@") "ret" [.strct "Header" ["name",
      "value"] [.path "name", .path "lines"]])])])]

/-- `http::request`, examples/http_parser.rs:121-130. -/
def http_request : Fn where
  params := [.bind false "i"]
  body :=
    .method (.call (.path "http::request_line") [.path "i"]) "bind" [.closure [.bind false "i@", .bind false
      "r"] (.method (.call (.path "http::end_of_line") [.path "i@"]) "bind" [.closure [.bind false "i@", .wild]
      (.method (.call (.path "many") [.path "i@", .path "http::message_header"]) "bind" [.closure [.bind false
      "i@", .bind false "h"] (.method (.call (.path "http::end_of_line") [.path "i@"]) "bind" [.closure [.bind
      false "i@", .wild] (.method (.path "i@") "ret" [.tuple [.path "r", .path "h"]])])])])]

/-- `http::main`, examples/http_parser.rs:132-148. -/
def http_main : Fn where
  params := []
  body :=
    .letIn (.bind false "file") (.method (.method (.call (.path "File::open") [.method (.method (.call (.path
      "env::args") []) "nth" [.num 1]) "expect" [.str "File to read"]]) "ok" []) "expect" [.str
      "Failed to open file"]) (.letIn (.bind true "i") (.call (.path "Source::new") [.path "file"]) (.letIn
      (.bind true "n") (.call (.path "i32") [.byte 0]) (.seq (.loop (.mtch (.method (.path "i") "parse" [.path
      "http::request"]) [.mk (.con "Ok" [.wild]) (.bool true) (.assign (.path "n") (.bin .add (.path "n") (.call
      (.path "i32") [.byte 1]))), .mk (.con "Err" [.con "StreamError::Retry" []]) (.bool true) (.tuple []), .mk
      (.con "Err" [.con "StreamError::EndOfInput" []]) (.bool true) .brk, .mk (.con "Err" [.bind false "e"])
      (.bool true) (.seq .panic (.tuple []))])) (.seq (.call (.path "println!") [.str "num: ", .con "Display"
      [.path "n"]]) (.tuple [])))))

/-- The functions with the feature `verbose_error`. -/
def verbose : List (String × List (String × Fn)) := [
  ("", [("input::new", input_new), ("parse_result::new", parse_result_new), ("parse_only", parse_only),
    ("any", any), ("satisfy", satisfy), ("satisfy_with", satisfy_with), ("token", token),
    ("not_token", not_token), ("peek", peek), ("peek_next", peek_next), ("take", take),
    ("take_while", take_while), ("take_while1", take_while1), ("take_till", take_till), ("scan", scan),
    ("run_scanner", run_scanner), ("take_remainder", take_remainder), ("string", string), ("eof", eof),
    ("err::unexpected", err_unexpected_verbose), ("err::expected", err_expected_verbose),
    ("err::string", err_string_verbose), ("is_lowercase", is_lowercase), ("is_uppercase", is_uppercase),
    ("is_whitespace", is_whitespace), ("is_horizontal_space", is_horizontal_space),
    ("is_end_of_line", is_end_of_line), ("is_digit", is_digit), ("is_alpha", is_alpha),
    ("is_alphanumeric", is_alphanumeric), ("skip_whitespace", skip_whitespace), ("digit", digit),
    ("signed", signed), ("decimal", decimal), ("to_decimal", to_decimal), ("bounded::many", bounded_many),
    ("bounded::skip_many", bounded_skip_many), ("bounded::many_till", bounded_many_till), ("count", count),
    ("option", option), ("or", or), ("many", many), ("many1", many1), ("sep_by", sep_by),
    ("sep_by1", sep_by1), ("many_till", many_till), ("skip_many", skip_many), ("skip_many1", skip_many1),
    ("matched_by", matched_by), ("look_ahead", look_ahead), ("ReadDataSource::new", ReadDataSource_new),
    ("IteratorDataSource::new", IteratorDataSource_new), ("FixedSizeBuffer::new", FixedSizeBuffer_new),
    ("FixedSizeBuffer::with_size", FixedSizeBuffer_with_size), ("GrowingBuffer::new", GrowingBuffer_new),
    ("GrowingBuffer::with_limit", GrowingBuffer_with_limit), ("StreamError::from", StreamError_from),
    ("SliceStream::new", SliceStream_new), ("slice::into_stream", slice_into_stream),
    ("Source::new", Source_new), ("Source::from_read", Source_from_read),
    ("Source::from_iter", Source_from_iter), ("Source::with_buffer", Source_with_buffer),
    ("http::is_token", http_is_token), ("http::is_horizontal_space", http_is_horizontal_space),
    ("http::is_space", http_is_space), ("http::is_not_space", http_is_not_space),
    ("http::is_end_of_line", http_is_end_of_line), ("http::is_http_version", http_is_http_version),
    ("http::end_of_line", http_end_of_line), ("http::http_version", http_http_version),
    ("http::request_line", http_request_line), ("http::message_header_line", http_message_header_line),
    ("http::message_header", http_message_header), ("http::request", http_request),
    ("http::main", http_main)]),
  ("Input", [("new", Input_new), ("ret", Input_ret), ("err", Input_err), ("incomplete", Input_incomplete),
    ("from_result", Input_from_result), ("clone", Input_clone), ("buffer", Input_buffer),
    ("replace", Input_replace), ("is_last_slice", Input_is_last_slice)]),
  ("ParseResult", [("bind", ParseResult_bind), ("then", ParseResult_then), ("map", ParseResult_map),
    ("map_err", ParseResult_map_err), ("inspect", ParseResult_inspect), ("unwrap", ParseResult_unwrap),
    ("expect", ParseResult_expect), ("unwrap_err", ParseResult_unwrap_err),
    ("into_inner", ParseResult_into_inner)]),
  ("Error", [("new", Error_new_verbose), ("fmt", Error_fmt_verbose), ("description", Error_description_verbose)]),
  ("Iter of Range::parse_many", [("end_state", Range_parse_many_end_state), ("size_hint", Range_parse_many_size_hint),
    ("next", Range_parse_many_next)]),
  ("Range", [("parse_many", Range_parse_many), ("skip_many", Range_skip_many), ("many_till", Range_many_till)]),
  ("IterTill of Range::many_till", [("end_state", Range_many_till_end_state), ("size_hint", Range_many_till_size_hint),
    ("next", Range_many_till_next)]),
  ("Iter of RangeFrom::parse_many", [("end_state", RangeFrom_parse_many_end_state), ("size_hint", RangeFrom_parse_many_size_hint),
    ("next", RangeFrom_parse_many_next)]),
  ("RangeFrom", [("parse_many", RangeFrom_parse_many), ("skip_many", RangeFrom_skip_many),
    ("many_till", RangeFrom_many_till)]),
  ("IterTill of RangeFrom::many_till", [("end_state", RangeFrom_many_till_end_state), ("size_hint", RangeFrom_many_till_size_hint),
    ("next", RangeFrom_many_till_next)]),
  ("Iter of RangeFull::parse_many", [("end_state", RangeFull_parse_many_end_state), ("size_hint", RangeFull_parse_many_size_hint),
    ("next", RangeFull_parse_many_next)]),
  ("RangeFull", [("parse_many", RangeFull_parse_many), ("skip_many", RangeFull_skip_many),
    ("many_till", RangeFull_many_till)]),
  ("IterTill of RangeFull::many_till", [("end_state", RangeFull_many_till_end_state), ("size_hint", RangeFull_many_till_size_hint),
    ("next", RangeFull_many_till_next)]),
  ("Iter of RangeTo::parse_many", [("end_state", RangeTo_parse_many_end_state), ("size_hint", RangeTo_parse_many_size_hint),
    ("next", RangeTo_parse_many_next)]),
  ("RangeTo", [("parse_many", RangeTo_parse_many), ("skip_many", RangeTo_skip_many), ("many_till", RangeTo_many_till)]),
  ("IterTill of RangeTo::many_till", [("end_state", RangeTo_many_till_end_state), ("size_hint", RangeTo_many_till_size_hint),
    ("next", RangeTo_many_till_next)]),
  ("Iter of usize::parse_many", [("end_state", usize_parse_many_end_state), ("size_hint", usize_parse_many_size_hint),
    ("next", usize_parse_many_next)]),
  ("usize", [("parse_many", usize_parse_many), ("skip_many", usize_skip_many), ("many_till", usize_many_till)]),
  ("IterTill of usize::many_till", [("end_state", usize_many_till_end_state), ("size_hint", usize_many_till_size_hint),
    ("next", usize_many_till_next)]),
  ("ReadDataSource", [("into_inner", ReadDataSource_into_inner), ("read", ReadDataSource_read)]),
  ("IteratorDataSource", [("into_inner", IteratorDataSource_into_inner), ("read", IteratorDataSource_read)]),
  ("Buffer", [("is_empty", Buffer_is_empty)]),
  ("FixedSizeBuffer", [("deref", FixedSizeBuffer_deref), ("deref_mut", FixedSizeBuffer_deref_mut),
    ("fill", FixedSizeBuffer_fill), ("request_space", FixedSizeBuffer_request_space),
    ("consume", FixedSizeBuffer_consume), ("len", FixedSizeBuffer_len),
    ("capacity", FixedSizeBuffer_capacity)]),
  ("GrowingBuffer", [("deref", GrowingBuffer_deref), ("deref_mut", GrowingBuffer_deref_mut), ("fill", GrowingBuffer_fill),
    ("request_space", GrowingBuffer_request_space), ("consume", GrowingBuffer_consume),
    ("len", GrowingBuffer_len), ("capacity", GrowingBuffer_capacity)]),
  ("StreamError", [("eq", StreamError_eq)]),
  ("SliceStream", [("len", SliceStream_len), ("is_empty", SliceStream_is_empty), ("parse", SliceStream_parse)]),
  ("Source", [("fill_requested", Source_fill_requested), ("fill", Source_fill), ("len", Source_len),
    ("is_empty", Source_is_empty), ("capacity", Source_capacity), ("buffer", Source_buffer),
    ("reset", Source_reset), ("set_autofill", Source_set_autofill), ("read", Source_read),
    ("fill_buf", Source_fill_buf), ("consume", Source_consume), ("parse", Source_parse)])]

/-- The functions without the feature `verbose_error`. -/
def terse : List (String × List (String × Fn)) := [
  ("", [("input::new", input_new), ("parse_result::new", parse_result_new), ("parse_only", parse_only),
    ("any", any), ("satisfy", satisfy), ("satisfy_with", satisfy_with), ("token", token),
    ("not_token", not_token), ("peek", peek), ("peek_next", peek_next), ("take", take),
    ("take_while", take_while), ("take_while1", take_while1), ("take_till", take_till), ("scan", scan),
    ("run_scanner", run_scanner), ("take_remainder", take_remainder), ("string", string), ("eof", eof),
    ("err::unexpected", err_unexpected_terse), ("err::expected", err_expected_terse),
    ("err::string", err_string_terse), ("is_lowercase", is_lowercase), ("is_uppercase", is_uppercase),
    ("is_whitespace", is_whitespace), ("is_horizontal_space", is_horizontal_space),
    ("is_end_of_line", is_end_of_line), ("is_digit", is_digit), ("is_alpha", is_alpha),
    ("is_alphanumeric", is_alphanumeric), ("skip_whitespace", skip_whitespace), ("digit", digit),
    ("signed", signed), ("decimal", decimal), ("to_decimal", to_decimal), ("bounded::many", bounded_many),
    ("bounded::skip_many", bounded_skip_many), ("bounded::many_till", bounded_many_till), ("count", count),
    ("option", option), ("or", or), ("many", many), ("many1", many1), ("sep_by", sep_by),
    ("sep_by1", sep_by1), ("many_till", many_till), ("skip_many", skip_many), ("skip_many1", skip_many1),
    ("matched_by", matched_by), ("look_ahead", look_ahead), ("ReadDataSource::new", ReadDataSource_new),
    ("IteratorDataSource::new", IteratorDataSource_new), ("FixedSizeBuffer::new", FixedSizeBuffer_new),
    ("FixedSizeBuffer::with_size", FixedSizeBuffer_with_size), ("GrowingBuffer::new", GrowingBuffer_new),
    ("GrowingBuffer::with_limit", GrowingBuffer_with_limit), ("StreamError::from", StreamError_from),
    ("SliceStream::new", SliceStream_new), ("slice::into_stream", slice_into_stream),
    ("Source::new", Source_new), ("Source::from_read", Source_from_read),
    ("Source::from_iter", Source_from_iter), ("Source::with_buffer", Source_with_buffer),
    ("http::is_token", http_is_token), ("http::is_horizontal_space", http_is_horizontal_space),
    ("http::is_space", http_is_space), ("http::is_not_space", http_is_not_space),
    ("http::is_end_of_line", http_is_end_of_line), ("http::is_http_version", http_is_http_version),
    ("http::end_of_line", http_end_of_line), ("http::http_version", http_http_version),
    ("http::request_line", http_request_line), ("http::message_header_line", http_message_header_line),
    ("http::message_header", http_message_header), ("http::request", http_request),
    ("http::main", http_main)]),
  ("Input", [("new", Input_new), ("ret", Input_ret), ("err", Input_err), ("incomplete", Input_incomplete),
    ("from_result", Input_from_result), ("clone", Input_clone), ("buffer", Input_buffer),
    ("replace", Input_replace), ("is_last_slice", Input_is_last_slice)]),
  ("ParseResult", [("bind", ParseResult_bind), ("then", ParseResult_then), ("map", ParseResult_map),
    ("map_err", ParseResult_map_err), ("inspect", ParseResult_inspect), ("unwrap", ParseResult_unwrap),
    ("expect", ParseResult_expect), ("unwrap_err", ParseResult_unwrap_err),
    ("into_inner", ParseResult_into_inner)]),
  ("Error", [("new", Error_new_terse), ("fmt", Error_fmt_terse), ("description", Error_description_terse)]),
  ("Iter of Range::parse_many", [("end_state", Range_parse_many_end_state), ("size_hint", Range_parse_many_size_hint),
    ("next", Range_parse_many_next)]),
  ("Range", [("parse_many", Range_parse_many), ("skip_many", Range_skip_many), ("many_till", Range_many_till)]),
  ("IterTill of Range::many_till", [("end_state", Range_many_till_end_state), ("size_hint", Range_many_till_size_hint),
    ("next", Range_many_till_next)]),
  ("Iter of RangeFrom::parse_many", [("end_state", RangeFrom_parse_many_end_state), ("size_hint", RangeFrom_parse_many_size_hint),
    ("next", RangeFrom_parse_many_next)]),
  ("RangeFrom", [("parse_many", RangeFrom_parse_many), ("skip_many", RangeFrom_skip_many),
    ("many_till", RangeFrom_many_till)]),
  ("IterTill of RangeFrom::many_till", [("end_state", RangeFrom_many_till_end_state), ("size_hint", RangeFrom_many_till_size_hint),
    ("next", RangeFrom_many_till_next)]),
  ("Iter of RangeFull::parse_many", [("end_state", RangeFull_parse_many_end_state), ("size_hint", RangeFull_parse_many_size_hint),
    ("next", RangeFull_parse_many_next)]),
  ("RangeFull", [("parse_many", RangeFull_parse_many), ("skip_many", RangeFull_skip_many),
    ("many_till", RangeFull_many_till)]),
  ("IterTill of RangeFull::many_till", [("end_state", RangeFull_many_till_end_state), ("size_hint", RangeFull_many_till_size_hint),
    ("next", RangeFull_many_till_next)]),
  ("Iter of RangeTo::parse_many", [("end_state", RangeTo_parse_many_end_state), ("size_hint", RangeTo_parse_many_size_hint),
    ("next", RangeTo_parse_many_next)]),
  ("RangeTo", [("parse_many", RangeTo_parse_many), ("skip_many", RangeTo_skip_many), ("many_till", RangeTo_many_till)]),
  ("IterTill of RangeTo::many_till", [("end_state", RangeTo_many_till_end_state), ("size_hint", RangeTo_many_till_size_hint),
    ("next", RangeTo_many_till_next)]),
  ("Iter of usize::parse_many", [("end_state", usize_parse_many_end_state), ("size_hint", usize_parse_many_size_hint),
    ("next", usize_parse_many_next)]),
  ("usize", [("parse_many", usize_parse_many), ("skip_many", usize_skip_many), ("many_till", usize_many_till)]),
  ("IterTill of usize::many_till", [("end_state", usize_many_till_end_state), ("size_hint", usize_many_till_size_hint),
    ("next", usize_many_till_next)]),
  ("ReadDataSource", [("into_inner", ReadDataSource_into_inner), ("read", ReadDataSource_read)]),
  ("IteratorDataSource", [("into_inner", IteratorDataSource_into_inner), ("read", IteratorDataSource_read)]),
  ("Buffer", [("is_empty", Buffer_is_empty)]),
  ("FixedSizeBuffer", [("deref", FixedSizeBuffer_deref), ("deref_mut", FixedSizeBuffer_deref_mut),
    ("fill", FixedSizeBuffer_fill), ("request_space", FixedSizeBuffer_request_space),
    ("consume", FixedSizeBuffer_consume), ("len", FixedSizeBuffer_len),
    ("capacity", FixedSizeBuffer_capacity)]),
  ("GrowingBuffer", [("deref", GrowingBuffer_deref), ("deref_mut", GrowingBuffer_deref_mut), ("fill", GrowingBuffer_fill),
    ("request_space", GrowingBuffer_request_space), ("consume", GrowingBuffer_consume),
    ("len", GrowingBuffer_len), ("capacity", GrowingBuffer_capacity)]),
  ("StreamError", [("eq", StreamError_eq)]),
  ("SliceStream", [("len", SliceStream_len), ("is_empty", SliceStream_is_empty), ("parse", SliceStream_parse)]),
  ("Source", [("fill_requested", Source_fill_requested), ("fill", Source_fill), ("len", Source_len),
    ("is_empty", Source_is_empty), ("capacity", Source_capacity), ("buffer", Source_buffer),
    ("reset", Source_reset), ("set_autofill", Source_set_autofill), ("read", Source_read),
    ("fill_buf", Source_fill_buf), ("consume", Source_consume), ("parse", Source_parse)])]

/-- The functions and methods, by the type they belong to (if any) and their name. `v`: with the feature
`verbose_error`. -/
def find (v : Bool) (ty name : String) : Option Fn :=
  if v then (verbose.lookup ty).bind (·.lookup name) else (terse.lookup ty).bind (·.lookup name)

theorem find_input_new (v : Bool) : find v "" "input::new" = some (input_new) := by cases v <;> rfl
theorem find_Input_new (v : Bool) : find v "Input" "new" = some (Input_new) := by cases v <;> rfl
theorem find_Input_ret (v : Bool) : find v "Input" "ret" = some (Input_ret) := by cases v <;> rfl
theorem find_Input_err (v : Bool) : find v "Input" "err" = some (Input_err) := by cases v <;> rfl
theorem find_Input_incomplete (v : Bool) : find v "Input" "incomplete" = some (Input_incomplete) := by cases v <;> rfl
theorem find_Input_from_result (v : Bool) : find v "Input" "from_result" = some (Input_from_result) := by cases v <;> rfl
theorem find_Input_clone (v : Bool) : find v "Input" "clone" = some (Input_clone) := by cases v <;> rfl
theorem find_Input_buffer (v : Bool) : find v "Input" "buffer" = some (Input_buffer) := by cases v <;> rfl
theorem find_Input_replace (v : Bool) : find v "Input" "replace" = some (Input_replace) := by cases v <;> rfl
theorem find_Input_is_last_slice (v : Bool) : find v "Input" "is_last_slice" = some (Input_is_last_slice) := by cases v <;> rfl
theorem find_parse_result_new (v : Bool) : find v "" "parse_result::new" = some (parse_result_new) := by cases v <;> rfl
theorem find_ParseResult_bind (v : Bool) : find v "ParseResult" "bind" = some (ParseResult_bind) := by cases v <;> rfl
theorem find_ParseResult_then (v : Bool) : find v "ParseResult" "then" = some (ParseResult_then) := by cases v <;> rfl
theorem find_ParseResult_map (v : Bool) : find v "ParseResult" "map" = some (ParseResult_map) := by cases v <;> rfl
theorem find_ParseResult_map_err (v : Bool) : find v "ParseResult" "map_err" = some (ParseResult_map_err) := by cases v <;> rfl
theorem find_ParseResult_inspect (v : Bool) : find v "ParseResult" "inspect" = some (ParseResult_inspect) := by cases v <;> rfl
theorem find_ParseResult_unwrap (v : Bool) : find v "ParseResult" "unwrap" = some (ParseResult_unwrap) := by cases v <;> rfl
theorem find_ParseResult_expect (v : Bool) : find v "ParseResult" "expect" = some (ParseResult_expect) := by cases v <;> rfl
theorem find_ParseResult_unwrap_err (v : Bool) : find v "ParseResult" "unwrap_err" = some (ParseResult_unwrap_err) := by cases v <;> rfl
theorem find_ParseResult_into_inner (v : Bool) : find v "ParseResult" "into_inner" = some (ParseResult_into_inner) := by cases v <;> rfl
theorem find_parse_only (v : Bool) : find v "" "parse_only" = some (parse_only) := by cases v <;> rfl
theorem find_any (v : Bool) : find v "" "any" = some (any) := by cases v <;> rfl
theorem find_satisfy (v : Bool) : find v "" "satisfy" = some (satisfy) := by cases v <;> rfl
theorem find_satisfy_with (v : Bool) : find v "" "satisfy_with" = some (satisfy_with) := by cases v <;> rfl
theorem find_token (v : Bool) : find v "" "token" = some (token) := by cases v <;> rfl
theorem find_not_token (v : Bool) : find v "" "not_token" = some (not_token) := by cases v <;> rfl
theorem find_peek (v : Bool) : find v "" "peek" = some (peek) := by cases v <;> rfl
theorem find_peek_next (v : Bool) : find v "" "peek_next" = some (peek_next) := by cases v <;> rfl
theorem find_take (v : Bool) : find v "" "take" = some (take) := by cases v <;> rfl
theorem find_take_while (v : Bool) : find v "" "take_while" = some (take_while) := by cases v <;> rfl
theorem find_take_while1 (v : Bool) : find v "" "take_while1" = some (take_while1) := by cases v <;> rfl
theorem find_take_till (v : Bool) : find v "" "take_till" = some (take_till) := by cases v <;> rfl
theorem find_scan (v : Bool) : find v "" "scan" = some (scan) := by cases v <;> rfl
theorem find_run_scanner (v : Bool) : find v "" "run_scanner" = some (run_scanner) := by cases v <;> rfl
theorem find_take_remainder (v : Bool) : find v "" "take_remainder" = some (take_remainder) := by cases v <;> rfl
theorem find_string (v : Bool) : find v "" "string" = some (string) := by cases v <;> rfl
theorem find_eof (v : Bool) : find v "" "eof" = some (eof) := by cases v <;> rfl
theorem find_Error_new (v : Bool) : find v "Error" "new" = some (if v then Error_new_verbose else Error_new_terse) := by cases v <;> rfl
theorem find_Error_fmt (v : Bool) : find v "Error" "fmt" = some (if v then Error_fmt_verbose else Error_fmt_terse) := by cases v <;> rfl
theorem find_Error_description (v : Bool) : find v "Error" "description" = some (if v then Error_description_verbose else Error_description_terse) := by cases v <;> rfl
theorem find_err_unexpected (v : Bool) : find v "" "err::unexpected" = some (if v then err_unexpected_verbose else err_unexpected_terse) := by cases v <;> rfl
theorem find_err_expected (v : Bool) : find v "" "err::expected" = some (if v then err_expected_verbose else err_expected_terse) := by cases v <;> rfl
theorem find_err_string (v : Bool) : find v "" "err::string" = some (if v then err_string_verbose else err_string_terse) := by cases v <;> rfl
theorem find_is_lowercase (v : Bool) : find v "" "is_lowercase" = some (is_lowercase) := by cases v <;> rfl
theorem find_is_uppercase (v : Bool) : find v "" "is_uppercase" = some (is_uppercase) := by cases v <;> rfl
theorem find_is_whitespace (v : Bool) : find v "" "is_whitespace" = some (is_whitespace) := by cases v <;> rfl
theorem find_is_horizontal_space (v : Bool) : find v "" "is_horizontal_space" = some (is_horizontal_space) := by cases v <;> rfl
theorem find_is_end_of_line (v : Bool) : find v "" "is_end_of_line" = some (is_end_of_line) := by cases v <;> rfl
theorem find_is_digit (v : Bool) : find v "" "is_digit" = some (is_digit) := by cases v <;> rfl
theorem find_is_alpha (v : Bool) : find v "" "is_alpha" = some (is_alpha) := by cases v <;> rfl
theorem find_is_alphanumeric (v : Bool) : find v "" "is_alphanumeric" = some (is_alphanumeric) := by cases v <;> rfl
theorem find_skip_whitespace (v : Bool) : find v "" "skip_whitespace" = some (skip_whitespace) := by cases v <;> rfl
theorem find_digit (v : Bool) : find v "" "digit" = some (digit) := by cases v <;> rfl
theorem find_signed (v : Bool) : find v "" "signed" = some (signed) := by cases v <;> rfl
theorem find_decimal (v : Bool) : find v "" "decimal" = some (decimal) := by cases v <;> rfl
theorem find_to_decimal (v : Bool) : find v "" "to_decimal" = some (to_decimal) := by cases v <;> rfl
theorem find_Range_parse_many_end_state (v : Bool) : find v "Iter of Range::parse_many" "end_state" = some (Range_parse_many_end_state) := by cases v <;> rfl
theorem find_Range_parse_many_size_hint (v : Bool) : find v "Iter of Range::parse_many" "size_hint" = some (Range_parse_many_size_hint) := by cases v <;> rfl
theorem find_Range_parse_many_next (v : Bool) : find v "Iter of Range::parse_many" "next" = some (Range_parse_many_next) := by cases v <;> rfl
theorem find_Range_parse_many (v : Bool) : find v "Range" "parse_many" = some (Range_parse_many) := by cases v <;> rfl
theorem find_Range_skip_many (v : Bool) : find v "Range" "skip_many" = some (Range_skip_many) := by cases v <;> rfl
theorem find_Range_many_till_end_state (v : Bool) : find v "IterTill of Range::many_till" "end_state" = some (Range_many_till_end_state) := by cases v <;> rfl
theorem find_Range_many_till_size_hint (v : Bool) : find v "IterTill of Range::many_till" "size_hint" = some (Range_many_till_size_hint) := by cases v <;> rfl
theorem find_Range_many_till_next (v : Bool) : find v "IterTill of Range::many_till" "next" = some (Range_many_till_next) := by cases v <;> rfl
theorem find_Range_many_till (v : Bool) : find v "Range" "many_till" = some (Range_many_till) := by cases v <;> rfl
theorem find_RangeFrom_parse_many_end_state (v : Bool) : find v "Iter of RangeFrom::parse_many" "end_state" = some (RangeFrom_parse_many_end_state) := by cases v <;> rfl
theorem find_RangeFrom_parse_many_size_hint (v : Bool) : find v "Iter of RangeFrom::parse_many" "size_hint" = some (RangeFrom_parse_many_size_hint) := by cases v <;> rfl
theorem find_RangeFrom_parse_many_next (v : Bool) : find v "Iter of RangeFrom::parse_many" "next" = some (RangeFrom_parse_many_next) := by cases v <;> rfl
theorem find_RangeFrom_parse_many (v : Bool) : find v "RangeFrom" "parse_many" = some (RangeFrom_parse_many) := by cases v <;> rfl
theorem find_RangeFrom_skip_many (v : Bool) : find v "RangeFrom" "skip_many" = some (RangeFrom_skip_many) := by cases v <;> rfl
theorem find_RangeFrom_many_till_end_state (v : Bool) : find v "IterTill of RangeFrom::many_till" "end_state" = some (RangeFrom_many_till_end_state) := by cases v <;> rfl
theorem find_RangeFrom_many_till_size_hint (v : Bool) : find v "IterTill of RangeFrom::many_till" "size_hint" = some (RangeFrom_many_till_size_hint) := by cases v <;> rfl
theorem find_RangeFrom_many_till_next (v : Bool) : find v "IterTill of RangeFrom::many_till" "next" = some (RangeFrom_many_till_next) := by cases v <;> rfl
theorem find_RangeFrom_many_till (v : Bool) : find v "RangeFrom" "many_till" = some (RangeFrom_many_till) := by cases v <;> rfl
theorem find_RangeFull_parse_many_end_state (v : Bool) : find v "Iter of RangeFull::parse_many" "end_state" = some (RangeFull_parse_many_end_state) := by cases v <;> rfl
theorem find_RangeFull_parse_many_size_hint (v : Bool) : find v "Iter of RangeFull::parse_many" "size_hint" = some (RangeFull_parse_many_size_hint) := by cases v <;> rfl
theorem find_RangeFull_parse_many_next (v : Bool) : find v "Iter of RangeFull::parse_many" "next" = some (RangeFull_parse_many_next) := by cases v <;> rfl
theorem find_RangeFull_parse_many (v : Bool) : find v "RangeFull" "parse_many" = some (RangeFull_parse_many) := by cases v <;> rfl
theorem find_RangeFull_skip_many (v : Bool) : find v "RangeFull" "skip_many" = some (RangeFull_skip_many) := by cases v <;> rfl
theorem find_RangeFull_many_till_end_state (v : Bool) : find v "IterTill of RangeFull::many_till" "end_state" = some (RangeFull_many_till_end_state) := by cases v <;> rfl
theorem find_RangeFull_many_till_size_hint (v : Bool) : find v "IterTill of RangeFull::many_till" "size_hint" = some (RangeFull_many_till_size_hint) := by cases v <;> rfl
theorem find_RangeFull_many_till_next (v : Bool) : find v "IterTill of RangeFull::many_till" "next" = some (RangeFull_many_till_next) := by cases v <;> rfl
theorem find_RangeFull_many_till (v : Bool) : find v "RangeFull" "many_till" = some (RangeFull_many_till) := by cases v <;> rfl
theorem find_RangeTo_parse_many_end_state (v : Bool) : find v "Iter of RangeTo::parse_many" "end_state" = some (RangeTo_parse_many_end_state) := by cases v <;> rfl
theorem find_RangeTo_parse_many_size_hint (v : Bool) : find v "Iter of RangeTo::parse_many" "size_hint" = some (RangeTo_parse_many_size_hint) := by cases v <;> rfl
theorem find_RangeTo_parse_many_next (v : Bool) : find v "Iter of RangeTo::parse_many" "next" = some (RangeTo_parse_many_next) := by cases v <;> rfl
theorem find_RangeTo_parse_many (v : Bool) : find v "RangeTo" "parse_many" = some (RangeTo_parse_many) := by cases v <;> rfl
theorem find_RangeTo_skip_many (v : Bool) : find v "RangeTo" "skip_many" = some (RangeTo_skip_many) := by cases v <;> rfl
theorem find_RangeTo_many_till_end_state (v : Bool) : find v "IterTill of RangeTo::many_till" "end_state" = some (RangeTo_many_till_end_state) := by cases v <;> rfl
theorem find_RangeTo_many_till_size_hint (v : Bool) : find v "IterTill of RangeTo::many_till" "size_hint" = some (RangeTo_many_till_size_hint) := by cases v <;> rfl
theorem find_RangeTo_many_till_next (v : Bool) : find v "IterTill of RangeTo::many_till" "next" = some (RangeTo_many_till_next) := by cases v <;> rfl
theorem find_RangeTo_many_till (v : Bool) : find v "RangeTo" "many_till" = some (RangeTo_many_till) := by cases v <;> rfl
theorem find_usize_parse_many_end_state (v : Bool) : find v "Iter of usize::parse_many" "end_state" = some (usize_parse_many_end_state) := by cases v <;> rfl
theorem find_usize_parse_many_size_hint (v : Bool) : find v "Iter of usize::parse_many" "size_hint" = some (usize_parse_many_size_hint) := by cases v <;> rfl
theorem find_usize_parse_many_next (v : Bool) : find v "Iter of usize::parse_many" "next" = some (usize_parse_many_next) := by cases v <;> rfl
theorem find_usize_parse_many (v : Bool) : find v "usize" "parse_many" = some (usize_parse_many) := by cases v <;> rfl
theorem find_usize_skip_many (v : Bool) : find v "usize" "skip_many" = some (usize_skip_many) := by cases v <;> rfl
theorem find_usize_many_till_end_state (v : Bool) : find v "IterTill of usize::many_till" "end_state" = some (usize_many_till_end_state) := by cases v <;> rfl
theorem find_usize_many_till_size_hint (v : Bool) : find v "IterTill of usize::many_till" "size_hint" = some (usize_many_till_size_hint) := by cases v <;> rfl
theorem find_usize_many_till_next (v : Bool) : find v "IterTill of usize::many_till" "next" = some (usize_many_till_next) := by cases v <;> rfl
theorem find_usize_many_till (v : Bool) : find v "usize" "many_till" = some (usize_many_till) := by cases v <;> rfl
theorem find_bounded_many (v : Bool) : find v "" "bounded::many" = some (bounded_many) := by cases v <;> rfl
theorem find_bounded_skip_many (v : Bool) : find v "" "bounded::skip_many" = some (bounded_skip_many) := by cases v <;> rfl
theorem find_bounded_many_till (v : Bool) : find v "" "bounded::many_till" = some (bounded_many_till) := by cases v <;> rfl
theorem find_count (v : Bool) : find v "" "count" = some (count) := by cases v <;> rfl
theorem find_option (v : Bool) : find v "" "option" = some (option) := by cases v <;> rfl
theorem find_or (v : Bool) : find v "" "or" = some (or) := by cases v <;> rfl
theorem find_many (v : Bool) : find v "" "many" = some (many) := by cases v <;> rfl
theorem find_many1 (v : Bool) : find v "" "many1" = some (many1) := by cases v <;> rfl
theorem find_sep_by (v : Bool) : find v "" "sep_by" = some (sep_by) := by cases v <;> rfl
theorem find_sep_by1 (v : Bool) : find v "" "sep_by1" = some (sep_by1) := by cases v <;> rfl
theorem find_many_till (v : Bool) : find v "" "many_till" = some (many_till) := by cases v <;> rfl
theorem find_skip_many (v : Bool) : find v "" "skip_many" = some (skip_many) := by cases v <;> rfl
theorem find_skip_many1 (v : Bool) : find v "" "skip_many1" = some (skip_many1) := by cases v <;> rfl
theorem find_matched_by (v : Bool) : find v "" "matched_by" = some (matched_by) := by cases v <;> rfl
theorem find_look_ahead (v : Bool) : find v "" "look_ahead" = some (look_ahead) := by cases v <;> rfl
theorem find_ReadDataSource_new (v : Bool) : find v "" "ReadDataSource::new" = some (ReadDataSource_new) := by cases v <;> rfl
theorem find_ReadDataSource_into_inner (v : Bool) : find v "ReadDataSource" "into_inner" = some (ReadDataSource_into_inner) := by cases v <;> rfl
theorem find_ReadDataSource_read (v : Bool) : find v "ReadDataSource" "read" = some (ReadDataSource_read) := by cases v <;> rfl
theorem find_IteratorDataSource_new (v : Bool) : find v "" "IteratorDataSource::new" = some (IteratorDataSource_new) := by cases v <;> rfl
theorem find_IteratorDataSource_into_inner (v : Bool) : find v "IteratorDataSource" "into_inner" = some (IteratorDataSource_into_inner) := by cases v <;> rfl
theorem find_IteratorDataSource_read (v : Bool) : find v "IteratorDataSource" "read" = some (IteratorDataSource_read) := by cases v <;> rfl
theorem find_Buffer_is_empty (v : Bool) : find v "Buffer" "is_empty" = some (Buffer_is_empty) := by cases v <;> rfl
theorem find_FixedSizeBuffer_new (v : Bool) : find v "" "FixedSizeBuffer::new" = some (FixedSizeBuffer_new) := by cases v <;> rfl
theorem find_FixedSizeBuffer_with_size (v : Bool) : find v "" "FixedSizeBuffer::with_size" = some (FixedSizeBuffer_with_size) := by cases v <;> rfl
theorem find_FixedSizeBuffer_deref (v : Bool) : find v "FixedSizeBuffer" "deref" = some (FixedSizeBuffer_deref) := by cases v <;> rfl
theorem find_FixedSizeBuffer_deref_mut (v : Bool) : find v "FixedSizeBuffer" "deref_mut" = some (FixedSizeBuffer_deref_mut) := by cases v <;> rfl
theorem find_FixedSizeBuffer_fill (v : Bool) : find v "FixedSizeBuffer" "fill" = some (FixedSizeBuffer_fill) := by cases v <;> rfl
theorem find_FixedSizeBuffer_request_space (v : Bool) : find v "FixedSizeBuffer" "request_space" = some (FixedSizeBuffer_request_space) := by cases v <;> rfl
theorem find_FixedSizeBuffer_consume (v : Bool) : find v "FixedSizeBuffer" "consume" = some (FixedSizeBuffer_consume) := by cases v <;> rfl
theorem find_FixedSizeBuffer_len (v : Bool) : find v "FixedSizeBuffer" "len" = some (FixedSizeBuffer_len) := by cases v <;> rfl
theorem find_FixedSizeBuffer_capacity (v : Bool) : find v "FixedSizeBuffer" "capacity" = some (FixedSizeBuffer_capacity) := by cases v <;> rfl
theorem find_GrowingBuffer_new (v : Bool) : find v "" "GrowingBuffer::new" = some (GrowingBuffer_new) := by cases v <;> rfl
theorem find_GrowingBuffer_with_limit (v : Bool) : find v "" "GrowingBuffer::with_limit" = some (GrowingBuffer_with_limit) := by cases v <;> rfl
theorem find_GrowingBuffer_deref (v : Bool) : find v "GrowingBuffer" "deref" = some (GrowingBuffer_deref) := by cases v <;> rfl
theorem find_GrowingBuffer_deref_mut (v : Bool) : find v "GrowingBuffer" "deref_mut" = some (GrowingBuffer_deref_mut) := by cases v <;> rfl
theorem find_GrowingBuffer_fill (v : Bool) : find v "GrowingBuffer" "fill" = some (GrowingBuffer_fill) := by cases v <;> rfl
theorem find_GrowingBuffer_request_space (v : Bool) : find v "GrowingBuffer" "request_space" = some (GrowingBuffer_request_space) := by cases v <;> rfl
theorem find_GrowingBuffer_consume (v : Bool) : find v "GrowingBuffer" "consume" = some (GrowingBuffer_consume) := by cases v <;> rfl
theorem find_GrowingBuffer_len (v : Bool) : find v "GrowingBuffer" "len" = some (GrowingBuffer_len) := by cases v <;> rfl
theorem find_GrowingBuffer_capacity (v : Bool) : find v "GrowingBuffer" "capacity" = some (GrowingBuffer_capacity) := by cases v <;> rfl
theorem find_StreamError_eq (v : Bool) : find v "StreamError" "eq" = some (StreamError_eq) := by cases v <;> rfl
theorem find_StreamError_from (v : Bool) : find v "" "StreamError::from" = some (StreamError_from) := by cases v <;> rfl
theorem find_SliceStream_new (v : Bool) : find v "" "SliceStream::new" = some (SliceStream_new) := by cases v <;> rfl
theorem find_SliceStream_len (v : Bool) : find v "SliceStream" "len" = some (SliceStream_len) := by cases v <;> rfl
theorem find_SliceStream_is_empty (v : Bool) : find v "SliceStream" "is_empty" = some (SliceStream_is_empty) := by cases v <;> rfl
theorem find_slice_into_stream (v : Bool) : find v "" "slice::into_stream" = some (slice_into_stream) := by cases v <;> rfl
theorem find_SliceStream_parse (v : Bool) : find v "SliceStream" "parse" = some (SliceStream_parse) := by cases v <;> rfl
theorem find_Source_new (v : Bool) : find v "" "Source::new" = some (Source_new) := by cases v <;> rfl
theorem find_Source_from_read (v : Bool) : find v "" "Source::from_read" = some (Source_from_read) := by cases v <;> rfl
theorem find_Source_from_iter (v : Bool) : find v "" "Source::from_iter" = some (Source_from_iter) := by cases v <;> rfl
theorem find_Source_with_buffer (v : Bool) : find v "" "Source::with_buffer" = some (Source_with_buffer) := by cases v <;> rfl
theorem find_Source_fill_requested (v : Bool) : find v "Source" "fill_requested" = some (Source_fill_requested) := by cases v <;> rfl
theorem find_Source_fill (v : Bool) : find v "Source" "fill" = some (Source_fill) := by cases v <;> rfl
theorem find_Source_len (v : Bool) : find v "Source" "len" = some (Source_len) := by cases v <;> rfl
theorem find_Source_is_empty (v : Bool) : find v "Source" "is_empty" = some (Source_is_empty) := by cases v <;> rfl
theorem find_Source_capacity (v : Bool) : find v "Source" "capacity" = some (Source_capacity) := by cases v <;> rfl
theorem find_Source_buffer (v : Bool) : find v "Source" "buffer" = some (Source_buffer) := by cases v <;> rfl
theorem find_Source_reset (v : Bool) : find v "Source" "reset" = some (Source_reset) := by cases v <;> rfl
theorem find_Source_set_autofill (v : Bool) : find v "Source" "set_autofill" = some (Source_set_autofill) := by cases v <;> rfl
theorem find_Source_read (v : Bool) : find v "Source" "read" = some (Source_read) := by cases v <;> rfl
theorem find_Source_fill_buf (v : Bool) : find v "Source" "fill_buf" = some (Source_fill_buf) := by cases v <;> rfl
theorem find_Source_consume (v : Bool) : find v "Source" "consume" = some (Source_consume) := by cases v <;> rfl
theorem find_Source_parse (v : Bool) : find v "Source" "parse" = some (Source_parse) := by cases v <;> rfl
theorem find_http_is_token (v : Bool) : find v "" "http::is_token" = some (http_is_token) := by cases v <;> rfl
theorem find_http_is_horizontal_space (v : Bool) : find v "" "http::is_horizontal_space" = some (http_is_horizontal_space) := by cases v <;> rfl
theorem find_http_is_space (v : Bool) : find v "" "http::is_space" = some (http_is_space) := by cases v <;> rfl
theorem find_http_is_not_space (v : Bool) : find v "" "http::is_not_space" = some (http_is_not_space) := by cases v <;> rfl
theorem find_http_is_end_of_line (v : Bool) : find v "" "http::is_end_of_line" = some (http_is_end_of_line) := by cases v <;> rfl
theorem find_http_is_http_version (v : Bool) : find v "" "http::is_http_version" = some (http_is_http_version) := by cases v <;> rfl
theorem find_http_end_of_line (v : Bool) : find v "" "http::end_of_line" = some (http_end_of_line) := by cases v <;> rfl
theorem find_http_http_version (v : Bool) : find v "" "http::http_version" = some (http_http_version) := by cases v <;> rfl
theorem find_http_request_line (v : Bool) : find v "" "http::request_line" = some (http_request_line) := by cases v <;> rfl
theorem find_http_message_header_line (v : Bool) : find v "" "http::message_header_line" = some (http_message_header_line) := by cases v <;> rfl
theorem find_http_message_header (v : Bool) : find v "" "http::message_header" = some (http_message_header) := by cases v <;> rfl
theorem find_http_request (v : Bool) : find v "" "http::request" = some (http_request) := by cases v <;> rfl
theorem find_http_main (v : Bool) : find v "" "http::main" = some (http_main) := by cases v <;> rfl

theorem find_no_type (v : Bool) (m : String) : find v "-" m = none := by cases v <;> rfl
theorem find_no_ByRef (v : Bool) (m : String) : find v "ByRef" m = none := by cases v <;> rfl
theorem find_no_Some (v : Bool) (m : String) : find v "Some" m = none := by cases v <;> rfl
theorem find_no_None (v : Bool) (m : String) : find v "None" m = none := by cases v <;> rfl
theorem find_no_Ok (v : Bool) (m : String) : find v "Ok" m = none := by cases v <;> rfl
theorem find_no_Err (v : Bool) (m : String) : find v "Err" m = none := by cases v <;> rfl
theorem find_no_InputMode (v : Bool) (m : String) : find v "InputMode" m = none := by cases v <;> rfl
theorem find_no_ParserState (v : Bool) (m : String) : find v "ParserState" m = none := by cases v <;> rfl
theorem find_no_SliceMut (v : Bool) (m : String) : find v "SliceMut" m = none := by cases v <;> rfl
theorem find_no_ptr (v : Bool) (m : String) : find v "ptr" m = none := by cases v <;> rfl
theorem find_no_Args (v : Bool) (m : String) : find v "Args" m = none := by cases v <;> rfl
theorem find_no_usize_get (v : Bool) : find v "usize" "get" = none := by cases v <;> rfl
theorem find_no_usize_set (v : Bool) : find v "usize" "set" = none := by cases v <;> rfl
theorem find_no_max (v : Bool) : find v "" "max" = none := by cases v <;> rfl
theorem find_no_cmpmax (v : Bool) : find v "" "cmp::max" = none := by cases v <;> rfl
theorem find_no_Cellnew (v : Bool) : find v "" "Cell::new" = none := by cases v <;> rfl
theorem find_no_Vecnew (v : Bool) : find v "" "Vec::new" = none := by cases v <;> rfl
theorem find_no_Vecwithcapacity (v : Bool) : find v "" "Vec::with_capacity" = none := by cases v <;> rfl
theorem find_no_ptrcopy (v : Bool) : find v "" "ptr::copy" = none := by cases v <;> rfl
theorem find_no_ParserStateempty (v : Bool) : find v "" "ParserState::empty" = none := by cases v <;> rfl
theorem find_no_EasFromEfrom (v : Bool) : find v "" "<E as From<E>>::from" = none := by cases v <;> rfl
theorem find_no_write (v : Bool) : find v "" "write!" = none := by cases v <;> rfl
theorem find_no_println (v : Bool) : find v "" "println!" = none := by cases v <;> rfl
theorem find_no_i (v : Bool) : find v "" "i32" = none := by cases v <;> rfl
theorem find_no_bytes (v : Bool) : find v "" "bytes!" = none := by cases v <;> rfl
theorem find_no_envargs (v : Bool) : find v "" "env::args" = none := by cases v <;> rfl
theorem find_no_Fileopen (v : Bool) : find v "" "File::open" = none := by cases v <;> rfl
theorem find_no_memreplace (v : Bool) : find v "" "mem::replace" = none := by cases v <;> rfl
theorem find_no_FromIteratorfromiter (v : Bool) : find v "" "FromIterator::from_iter" = none := by cases v <;> rfl
theorem find_no_VasFromVfrom (v : Bool) : find v "" "<V as From<V>>::from" = none := by cases v <;> rfl
theorem find_no_VasFromEfrom (v : Bool) : find v "" "<V as From<E>>::from" = none := by cases v <;> rfl
theorem find_no_TasValueFromuvaluefrom (v : Bool) : find v "" "<T as ValueFrom<u8>>::value_from" = none := by cases v <;> rfl
theorem find_no_TasValueFromivaluefrom (v : Bool) : find v "" "<T as ValueFrom<i8>>::value_from" = none := by cases v <;> rfl
theorem find_Range_parse_many_by_ref (v : Bool) : find v "Iter of Range::parse_many" "by_ref" = none := by cases v <;> rfl
theorem find_Range_many_till_by_ref (v : Bool) : find v "IterTill of Range::many_till" "by_ref" = none := by cases v <;> rfl
theorem find_RangeFrom_parse_many_by_ref (v : Bool) : find v "Iter of RangeFrom::parse_many" "by_ref" = none := by cases v <;> rfl
theorem find_RangeFrom_many_till_by_ref (v : Bool) : find v "IterTill of RangeFrom::many_till" "by_ref" = none := by cases v <;> rfl
theorem find_RangeFull_parse_many_by_ref (v : Bool) : find v "Iter of RangeFull::parse_many" "by_ref" = none := by cases v <;> rfl
theorem find_RangeFull_many_till_by_ref (v : Bool) : find v "IterTill of RangeFull::many_till" "by_ref" = none := by cases v <;> rfl
theorem find_RangeTo_parse_many_by_ref (v : Bool) : find v "Iter of RangeTo::parse_many" "by_ref" = none := by cases v <;> rfl
theorem find_RangeTo_many_till_by_ref (v : Bool) : find v "IterTill of RangeTo::many_till" "by_ref" = none := by cases v <;> rfl
theorem find_usize_parse_many_by_ref (v : Bool) : find v "Iter of usize::parse_many" "by_ref" = none := by cases v <;> rfl
theorem find_usize_many_till_by_ref (v : Bool) : find v "IterTill of usize::many_till" "by_ref" = none := by cases v <;> rfl

@[simp] theorem input_new_byMut : input_new.byMut = false := rfl
@[simp] theorem Input_new_byMut : Input_new.byMut = false := rfl
@[simp] theorem Input_ret_byMut : Input_ret.byMut = false := rfl
@[simp] theorem Input_err_byMut : Input_err.byMut = false := rfl
@[simp] theorem Input_incomplete_byMut : Input_incomplete.byMut = false := rfl
@[simp] theorem Input_from_result_byMut : Input_from_result.byMut = false := rfl
@[simp] theorem Input_clone_byMut : Input_clone.byMut = false := rfl
@[simp] theorem Input_buffer_byMut : Input_buffer.byMut = false := rfl
@[simp] theorem Input_replace_byMut : Input_replace.byMut = false := rfl
@[simp] theorem Input_is_last_slice_byMut : Input_is_last_slice.byMut = false := rfl
@[simp] theorem parse_result_new_byMut : parse_result_new.byMut = false := rfl
@[simp] theorem ParseResult_bind_byMut : ParseResult_bind.byMut = false := rfl
@[simp] theorem ParseResult_then_byMut : ParseResult_then.byMut = false := rfl
@[simp] theorem ParseResult_map_byMut : ParseResult_map.byMut = false := rfl
@[simp] theorem ParseResult_map_err_byMut : ParseResult_map_err.byMut = false := rfl
@[simp] theorem ParseResult_inspect_byMut : ParseResult_inspect.byMut = false := rfl
@[simp] theorem ParseResult_unwrap_byMut : ParseResult_unwrap.byMut = false := rfl
@[simp] theorem ParseResult_expect_byMut : ParseResult_expect.byMut = false := rfl
@[simp] theorem ParseResult_unwrap_err_byMut : ParseResult_unwrap_err.byMut = false := rfl
@[simp] theorem ParseResult_into_inner_byMut : ParseResult_into_inner.byMut = false := rfl
@[simp] theorem parse_only_byMut : parse_only.byMut = false := rfl
@[simp] theorem any_byMut : any.byMut = false := rfl
@[simp] theorem satisfy_byMut : satisfy.byMut = false := rfl
@[simp] theorem satisfy_with_byMut : satisfy_with.byMut = false := rfl
@[simp] theorem token_byMut : token.byMut = false := rfl
@[simp] theorem not_token_byMut : not_token.byMut = false := rfl
@[simp] theorem peek_byMut : peek.byMut = false := rfl
@[simp] theorem peek_next_byMut : peek_next.byMut = false := rfl
@[simp] theorem take_byMut : take.byMut = false := rfl
@[simp] theorem take_while_byMut : take_while.byMut = false := rfl
@[simp] theorem take_while1_byMut : take_while1.byMut = false := rfl
@[simp] theorem take_till_byMut : take_till.byMut = false := rfl
@[simp] theorem scan_byMut : scan.byMut = false := rfl
@[simp] theorem run_scanner_byMut : run_scanner.byMut = false := rfl
@[simp] theorem take_remainder_byMut : take_remainder.byMut = false := rfl
@[simp] theorem string_byMut : string.byMut = false := rfl
@[simp] theorem eof_byMut : eof.byMut = false := rfl
@[simp] theorem Error_new_verbose_byMut : Error_new_verbose.byMut = false := rfl
@[simp] theorem Error_fmt_verbose_byMut : Error_fmt_verbose.byMut = false := rfl
@[simp] theorem Error_description_verbose_byMut : Error_description_verbose.byMut = false := rfl
@[simp] theorem err_unexpected_verbose_byMut : err_unexpected_verbose.byMut = false := rfl
@[simp] theorem err_expected_verbose_byMut : err_expected_verbose.byMut = false := rfl
@[simp] theorem err_string_verbose_byMut : err_string_verbose.byMut = false := rfl
@[simp] theorem is_lowercase_byMut : is_lowercase.byMut = false := rfl
@[simp] theorem is_uppercase_byMut : is_uppercase.byMut = false := rfl
@[simp] theorem is_whitespace_byMut : is_whitespace.byMut = false := rfl
@[simp] theorem is_horizontal_space_byMut : is_horizontal_space.byMut = false := rfl
@[simp] theorem is_end_of_line_byMut : is_end_of_line.byMut = false := rfl
@[simp] theorem is_digit_byMut : is_digit.byMut = false := rfl
@[simp] theorem is_alpha_byMut : is_alpha.byMut = false := rfl
@[simp] theorem is_alphanumeric_byMut : is_alphanumeric.byMut = false := rfl
@[simp] theorem skip_whitespace_byMut : skip_whitespace.byMut = false := rfl
@[simp] theorem digit_byMut : digit.byMut = false := rfl
@[simp] theorem signed_byMut : signed.byMut = false := rfl
@[simp] theorem decimal_byMut : decimal.byMut = false := rfl
@[simp] theorem to_decimal_byMut : to_decimal.byMut = false := rfl
@[simp] theorem Range_parse_many_end_state_byMut : Range_parse_many_end_state.byMut = false := rfl
@[simp] theorem Range_parse_many_size_hint_byMut : Range_parse_many_size_hint.byMut = false := rfl
@[simp] theorem Range_parse_many_next_byMut : Range_parse_many_next.byMut = true := rfl
@[simp] theorem Range_parse_many_byMut : Range_parse_many.byMut = false := rfl
@[simp] theorem Range_skip_many_byMut : Range_skip_many.byMut = false := rfl
@[simp] theorem Range_many_till_end_state_byMut : Range_many_till_end_state.byMut = false := rfl
@[simp] theorem Range_many_till_size_hint_byMut : Range_many_till_size_hint.byMut = false := rfl
@[simp] theorem Range_many_till_next_byMut : Range_many_till_next.byMut = true := rfl
@[simp] theorem Range_many_till_byMut : Range_many_till.byMut = false := rfl
@[simp] theorem RangeFrom_parse_many_end_state_byMut : RangeFrom_parse_many_end_state.byMut = false := rfl
@[simp] theorem RangeFrom_parse_many_size_hint_byMut : RangeFrom_parse_many_size_hint.byMut = false := rfl
@[simp] theorem RangeFrom_parse_many_next_byMut : RangeFrom_parse_many_next.byMut = true := rfl
@[simp] theorem RangeFrom_parse_many_byMut : RangeFrom_parse_many.byMut = false := rfl
@[simp] theorem RangeFrom_skip_many_byMut : RangeFrom_skip_many.byMut = false := rfl
@[simp] theorem RangeFrom_many_till_end_state_byMut : RangeFrom_many_till_end_state.byMut = false := rfl
@[simp] theorem RangeFrom_many_till_size_hint_byMut : RangeFrom_many_till_size_hint.byMut = false := rfl
@[simp] theorem RangeFrom_many_till_next_byMut : RangeFrom_many_till_next.byMut = true := rfl
@[simp] theorem RangeFrom_many_till_byMut : RangeFrom_many_till.byMut = false := rfl
@[simp] theorem RangeFull_parse_many_end_state_byMut : RangeFull_parse_many_end_state.byMut = false := rfl
@[simp] theorem RangeFull_parse_many_size_hint_byMut : RangeFull_parse_many_size_hint.byMut = false := rfl
@[simp] theorem RangeFull_parse_many_next_byMut : RangeFull_parse_many_next.byMut = true := rfl
@[simp] theorem RangeFull_parse_many_byMut : RangeFull_parse_many.byMut = false := rfl
@[simp] theorem RangeFull_skip_many_byMut : RangeFull_skip_many.byMut = false := rfl
@[simp] theorem RangeFull_many_till_end_state_byMut : RangeFull_many_till_end_state.byMut = false := rfl
@[simp] theorem RangeFull_many_till_size_hint_byMut : RangeFull_many_till_size_hint.byMut = false := rfl
@[simp] theorem RangeFull_many_till_next_byMut : RangeFull_many_till_next.byMut = true := rfl
@[simp] theorem RangeFull_many_till_byMut : RangeFull_many_till.byMut = false := rfl
@[simp] theorem RangeTo_parse_many_end_state_byMut : RangeTo_parse_many_end_state.byMut = false := rfl
@[simp] theorem RangeTo_parse_many_size_hint_byMut : RangeTo_parse_many_size_hint.byMut = false := rfl
@[simp] theorem RangeTo_parse_many_next_byMut : RangeTo_parse_many_next.byMut = true := rfl
@[simp] theorem RangeTo_parse_many_byMut : RangeTo_parse_many.byMut = false := rfl
@[simp] theorem RangeTo_skip_many_byMut : RangeTo_skip_many.byMut = false := rfl
@[simp] theorem RangeTo_many_till_end_state_byMut : RangeTo_many_till_end_state.byMut = false := rfl
@[simp] theorem RangeTo_many_till_size_hint_byMut : RangeTo_many_till_size_hint.byMut = false := rfl
@[simp] theorem RangeTo_many_till_next_byMut : RangeTo_many_till_next.byMut = true := rfl
@[simp] theorem RangeTo_many_till_byMut : RangeTo_many_till.byMut = false := rfl
@[simp] theorem usize_parse_many_end_state_byMut : usize_parse_many_end_state.byMut = false := rfl
@[simp] theorem usize_parse_many_size_hint_byMut : usize_parse_many_size_hint.byMut = false := rfl
@[simp] theorem usize_parse_many_next_byMut : usize_parse_many_next.byMut = true := rfl
@[simp] theorem usize_parse_many_byMut : usize_parse_many.byMut = false := rfl
@[simp] theorem usize_skip_many_byMut : usize_skip_many.byMut = false := rfl
@[simp] theorem usize_many_till_end_state_byMut : usize_many_till_end_state.byMut = false := rfl
@[simp] theorem usize_many_till_size_hint_byMut : usize_many_till_size_hint.byMut = false := rfl
@[simp] theorem usize_many_till_next_byMut : usize_many_till_next.byMut = true := rfl
@[simp] theorem usize_many_till_byMut : usize_many_till.byMut = false := rfl
@[simp] theorem bounded_many_byMut : bounded_many.byMut = false := rfl
@[simp] theorem bounded_skip_many_byMut : bounded_skip_many.byMut = false := rfl
@[simp] theorem bounded_many_till_byMut : bounded_many_till.byMut = false := rfl
@[simp] theorem count_byMut : count.byMut = false := rfl
@[simp] theorem option_byMut : option.byMut = false := rfl
@[simp] theorem or_byMut : or.byMut = false := rfl
@[simp] theorem many_byMut : many.byMut = false := rfl
@[simp] theorem many1_byMut : many1.byMut = false := rfl
@[simp] theorem sep_by_byMut : sep_by.byMut = false := rfl
@[simp] theorem sep_by1_byMut : sep_by1.byMut = false := rfl
@[simp] theorem many_till_byMut : many_till.byMut = false := rfl
@[simp] theorem skip_many_byMut : skip_many.byMut = false := rfl
@[simp] theorem skip_many1_byMut : skip_many1.byMut = false := rfl
@[simp] theorem matched_by_byMut : matched_by.byMut = false := rfl
@[simp] theorem look_ahead_byMut : look_ahead.byMut = false := rfl
@[simp] theorem ReadDataSource_new_byMut : ReadDataSource_new.byMut = false := rfl
@[simp] theorem ReadDataSource_into_inner_byMut : ReadDataSource_into_inner.byMut = false := rfl
@[simp] theorem ReadDataSource_read_byMut : ReadDataSource_read.byMut = true := rfl
@[simp] theorem IteratorDataSource_new_byMut : IteratorDataSource_new.byMut = false := rfl
@[simp] theorem IteratorDataSource_into_inner_byMut : IteratorDataSource_into_inner.byMut = false := rfl
@[simp] theorem IteratorDataSource_read_byMut : IteratorDataSource_read.byMut = true := rfl
@[simp] theorem Buffer_is_empty_byMut : Buffer_is_empty.byMut = false := rfl
@[simp] theorem FixedSizeBuffer_new_byMut : FixedSizeBuffer_new.byMut = false := rfl
@[simp] theorem FixedSizeBuffer_with_size_byMut : FixedSizeBuffer_with_size.byMut = false := rfl
@[simp] theorem FixedSizeBuffer_deref_byMut : FixedSizeBuffer_deref.byMut = false := rfl
@[simp] theorem FixedSizeBuffer_deref_mut_byMut : FixedSizeBuffer_deref_mut.byMut = true := rfl
@[simp] theorem FixedSizeBuffer_fill_byMut : FixedSizeBuffer_fill.byMut = true := rfl
@[simp] theorem FixedSizeBuffer_request_space_byMut : FixedSizeBuffer_request_space.byMut = true := rfl
@[simp] theorem FixedSizeBuffer_consume_byMut : FixedSizeBuffer_consume.byMut = true := rfl
@[simp] theorem FixedSizeBuffer_len_byMut : FixedSizeBuffer_len.byMut = false := rfl
@[simp] theorem FixedSizeBuffer_capacity_byMut : FixedSizeBuffer_capacity.byMut = false := rfl
@[simp] theorem GrowingBuffer_new_byMut : GrowingBuffer_new.byMut = false := rfl
@[simp] theorem GrowingBuffer_with_limit_byMut : GrowingBuffer_with_limit.byMut = false := rfl
@[simp] theorem GrowingBuffer_deref_byMut : GrowingBuffer_deref.byMut = false := rfl
@[simp] theorem GrowingBuffer_deref_mut_byMut : GrowingBuffer_deref_mut.byMut = true := rfl
@[simp] theorem GrowingBuffer_fill_byMut : GrowingBuffer_fill.byMut = true := rfl
@[simp] theorem GrowingBuffer_request_space_byMut : GrowingBuffer_request_space.byMut = true := rfl
@[simp] theorem GrowingBuffer_consume_byMut : GrowingBuffer_consume.byMut = true := rfl
@[simp] theorem GrowingBuffer_len_byMut : GrowingBuffer_len.byMut = false := rfl
@[simp] theorem GrowingBuffer_capacity_byMut : GrowingBuffer_capacity.byMut = false := rfl
@[simp] theorem StreamError_eq_byMut : StreamError_eq.byMut = false := rfl
@[simp] theorem StreamError_from_byMut : StreamError_from.byMut = false := rfl
@[simp] theorem SliceStream_new_byMut : SliceStream_new.byMut = false := rfl
@[simp] theorem SliceStream_len_byMut : SliceStream_len.byMut = false := rfl
@[simp] theorem SliceStream_is_empty_byMut : SliceStream_is_empty.byMut = false := rfl
@[simp] theorem slice_into_stream_byMut : slice_into_stream.byMut = false := rfl
@[simp] theorem SliceStream_parse_byMut : SliceStream_parse.byMut = true := rfl
@[simp] theorem Source_new_byMut : Source_new.byMut = false := rfl
@[simp] theorem Source_from_read_byMut : Source_from_read.byMut = false := rfl
@[simp] theorem Source_from_iter_byMut : Source_from_iter.byMut = false := rfl
@[simp] theorem Source_with_buffer_byMut : Source_with_buffer.byMut = false := rfl
@[simp] theorem Source_fill_requested_byMut : Source_fill_requested.byMut = true := rfl
@[simp] theorem Source_fill_byMut : Source_fill.byMut = true := rfl
@[simp] theorem Source_len_byMut : Source_len.byMut = false := rfl
@[simp] theorem Source_is_empty_byMut : Source_is_empty.byMut = false := rfl
@[simp] theorem Source_capacity_byMut : Source_capacity.byMut = false := rfl
@[simp] theorem Source_buffer_byMut : Source_buffer.byMut = false := rfl
@[simp] theorem Source_reset_byMut : Source_reset.byMut = true := rfl
@[simp] theorem Source_set_autofill_byMut : Source_set_autofill.byMut = true := rfl
@[simp] theorem Source_read_byMut : Source_read.byMut = true := rfl
@[simp] theorem Source_fill_buf_byMut : Source_fill_buf.byMut = true := rfl
@[simp] theorem Source_consume_byMut : Source_consume.byMut = true := rfl
@[simp] theorem Source_parse_byMut : Source_parse.byMut = true := rfl
@[simp] theorem http_is_token_byMut : http_is_token.byMut = false := rfl
@[simp] theorem http_is_horizontal_space_byMut : http_is_horizontal_space.byMut = false := rfl
@[simp] theorem http_is_space_byMut : http_is_space.byMut = false := rfl
@[simp] theorem http_is_not_space_byMut : http_is_not_space.byMut = false := rfl
@[simp] theorem http_is_end_of_line_byMut : http_is_end_of_line.byMut = false := rfl
@[simp] theorem http_is_http_version_byMut : http_is_http_version.byMut = false := rfl
@[simp] theorem http_end_of_line_byMut : http_end_of_line.byMut = false := rfl
@[simp] theorem http_http_version_byMut : http_http_version.byMut = false := rfl
@[simp] theorem http_request_line_byMut : http_request_line.byMut = false := rfl
@[simp] theorem http_message_header_line_byMut : http_message_header_line.byMut = false := rfl
@[simp] theorem http_message_header_byMut : http_message_header.byMut = false := rfl
@[simp] theorem http_request_byMut : http_request.byMut = false := rfl
@[simp] theorem http_main_byMut : http_main.byMut = false := rfl
@[simp] theorem Error_new_terse_byMut : Error_new_terse.byMut = false := rfl
@[simp] theorem Error_fmt_terse_byMut : Error_fmt_terse.byMut = false := rfl
@[simp] theorem Error_description_terse_byMut : Error_description_terse.byMut = false := rfl
@[simp] theorem err_unexpected_terse_byMut : err_unexpected_terse.byMut = false := rfl
@[simp] theorem err_expected_terse_byMut : err_expected_terse.byMut = false := rfl
@[simp] theorem err_string_terse_byMut : err_string_terse.byMut = false := rfl
@[simp] theorem Error_new_verbose_Error_new_terse_byMut (v : Bool) : (if v then Error_new_verbose else Error_new_terse).byMut = false := by cases v <;> rfl
@[simp] theorem Error_fmt_verbose_Error_fmt_terse_byMut (v : Bool) : (if v then Error_fmt_verbose else Error_fmt_terse).byMut = false := by cases v <;> rfl
@[simp] theorem Error_description_verbose_Error_description_terse_byMut (v : Bool) : (if v then Error_description_verbose else Error_description_terse).byMut = false := by cases v <;> rfl
@[simp] theorem err_unexpected_verbose_err_unexpected_terse_byMut (v : Bool) : (if v then err_unexpected_verbose else err_unexpected_terse).byMut = false := by cases v <;> rfl
@[simp] theorem err_expected_verbose_err_expected_terse_byMut (v : Bool) : (if v then err_expected_verbose else err_expected_terse).byMut = false := by cases v <;> rfl
@[simp] theorem err_string_verbose_err_string_terse_byMut (v : Bool) : (if v then err_string_verbose else err_string_terse).byMut = false := by cases v <;> rfl

-- to look up functions by simp
attribute [simp] find_input_new find_Input_new find_Input_ret find_Input_err find_Input_incomplete find_Input_from_result find_Input_clone find_Input_buffer find_Input_replace find_Input_is_last_slice find_parse_result_new find_ParseResult_bind find_ParseResult_then find_ParseResult_map find_ParseResult_map_err find_ParseResult_inspect find_ParseResult_unwrap find_ParseResult_expect find_ParseResult_unwrap_err find_ParseResult_into_inner find_parse_only find_any find_satisfy find_satisfy_with find_token find_not_token find_peek find_peek_next find_take find_take_while find_take_while1 find_take_till find_scan find_run_scanner find_take_remainder find_string find_eof find_Error_new find_Error_fmt find_Error_description find_err_unexpected find_err_expected find_err_string find_is_lowercase find_is_uppercase find_is_whitespace find_is_horizontal_space find_is_end_of_line find_is_digit find_is_alpha find_is_alphanumeric find_skip_whitespace find_digit find_signed find_decimal find_to_decimal find_Range_parse_many_end_state find_Range_parse_many_size_hint find_Range_parse_many_next find_Range_parse_many find_Range_skip_many find_Range_many_till_end_state find_Range_many_till_size_hint find_Range_many_till_next find_Range_many_till find_RangeFrom_parse_many_end_state find_RangeFrom_parse_many_size_hint find_RangeFrom_parse_many_next find_RangeFrom_parse_many find_RangeFrom_skip_many find_RangeFrom_many_till_end_state find_RangeFrom_many_till_size_hint find_RangeFrom_many_till_next find_RangeFrom_many_till find_RangeFull_parse_many_end_state find_RangeFull_parse_many_size_hint find_RangeFull_parse_many_next find_RangeFull_parse_many find_RangeFull_skip_many find_RangeFull_many_till_end_state find_RangeFull_many_till_size_hint find_RangeFull_many_till_next find_RangeFull_many_till find_RangeTo_parse_many_end_state find_RangeTo_parse_many_size_hint find_RangeTo_parse_many_next find_RangeTo_parse_many find_RangeTo_skip_many find_RangeTo_many_till_end_state find_RangeTo_many_till_size_hint find_RangeTo_many_till_next find_RangeTo_many_till find_usize_parse_many_end_state find_usize_parse_many_size_hint find_usize_parse_many_next find_usize_parse_many find_usize_skip_many find_usize_many_till_end_state find_usize_many_till_size_hint find_usize_many_till_next find_usize_many_till find_bounded_many find_bounded_skip_many find_bounded_many_till find_count find_option find_or find_many find_many1 find_sep_by find_sep_by1 find_many_till find_skip_many find_skip_many1 find_matched_by find_look_ahead find_ReadDataSource_new find_ReadDataSource_into_inner find_ReadDataSource_read find_IteratorDataSource_new find_IteratorDataSource_into_inner find_IteratorDataSource_read find_Buffer_is_empty find_FixedSizeBuffer_new find_FixedSizeBuffer_with_size find_FixedSizeBuffer_deref find_FixedSizeBuffer_deref_mut find_FixedSizeBuffer_fill find_FixedSizeBuffer_request_space find_FixedSizeBuffer_consume find_FixedSizeBuffer_len find_FixedSizeBuffer_capacity find_GrowingBuffer_new find_GrowingBuffer_with_limit find_GrowingBuffer_deref find_GrowingBuffer_deref_mut find_GrowingBuffer_fill find_GrowingBuffer_request_space find_GrowingBuffer_consume find_GrowingBuffer_len find_GrowingBuffer_capacity find_StreamError_eq find_StreamError_from find_SliceStream_new find_SliceStream_len find_SliceStream_is_empty find_slice_into_stream find_SliceStream_parse find_Source_new find_Source_from_read find_Source_from_iter find_Source_with_buffer find_Source_fill_requested find_Source_fill find_Source_len find_Source_is_empty find_Source_capacity find_Source_buffer find_Source_reset find_Source_set_autofill find_Source_read find_Source_fill_buf find_Source_consume find_Source_parse find_http_is_token find_http_is_horizontal_space find_http_is_space find_http_is_not_space find_http_is_end_of_line find_http_is_http_version find_http_end_of_line find_http_http_version find_http_request_line find_http_message_header_line find_http_message_header find_http_request find_http_main find_Range_parse_many_by_ref find_Range_many_till_by_ref find_RangeFrom_parse_many_by_ref find_RangeFrom_many_till_by_ref find_RangeFull_parse_many_by_ref find_RangeFull_many_till_by_ref find_RangeTo_parse_many_by_ref find_RangeTo_many_till_by_ref find_usize_parse_many_by_ref find_usize_many_till_by_ref find_no_usize_get find_no_usize_set find_no_type find_no_ByRef find_no_Some find_no_None find_no_Ok find_no_Err find_no_InputMode find_no_ParserState find_no_SliceMut find_no_ptr find_no_Args find_no_max find_no_cmpmax find_no_Cellnew find_no_Vecnew find_no_Vecwithcapacity find_no_ptrcopy find_no_ParserStateempty find_no_EasFromEfrom find_no_write find_no_println find_no_i find_no_bytes find_no_envargs find_no_Fileopen find_no_memreplace find_no_FromIteratorfromiter find_no_VasFromVfrom find_no_VasFromEfrom find_no_TasValueFromuvaluefrom find_no_TasValueFromivaluefrom

end Chomp.Rust.Text
