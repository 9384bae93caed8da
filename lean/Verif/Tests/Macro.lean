import Verif.Tests.MacroRun
import Verif.Props.Macro

/-
The tests in /repo/src/macros.rs and of macros in /repo/tests/compile-fail, generated by tools/macro_tests.py.
Not among them: `empty`, `empty_expr`, where nothing is parsed.
-/

namespace Chomp.Tests.Macro

open Chomp.Macro

/-! `ret`, src/macros.rs:683-691 -/

example : result [] [.tok (.ident "i"), .tok .semi, .tok (.ident "ret"), .tok (.other "\"foo\"")] =
    some (.data ⟨.default, [123]⟩ (.str "\"foo\"")) := by
  rfl

/-! `ret_typed`, src/macros.rs:693-700 -/

example : result [] [.tok (.ident "i"), .tok .semi, .tok (.ident "ret"), .tok .at, .tok (.other "_"), .tok .comma, .group .paren [], .tok .colon, .tok (.other "\"foo\"")] =
    some (.data ⟨.default, [123]⟩ (.str "\"foo\"")) := by
  rfl

/-! `ret_typed2`, src/macros.rs:702-709 -/

example : result [] [.tok (.ident "i"), .tok .semi, .tok (.ident "ret"), .tok .at, .tok (.other "&"), .tok (.ident "str"), .tok .comma, .group .paren [], .tok .colon, .tok (.other "\"foo\"")] =
    some (.data ⟨.default, [123]⟩ (.str "\"foo\"")) := by
  rfl

/-! `err`, src/macros.rs:711-719 -/

example : result [] [.tok (.ident "i"), .tok .semi, .tok (.ident "err"), .tok (.other "\"foo\"")] =
    some (.error [123] (.str "\"foo\"")) := by
  rfl

/-! `err_typed`, src/macros.rs:721-728 -/

example : result [] [.tok (.ident "i"), .tok .semi, .tok (.ident "err"), .tok .at, .group .paren [], .tok .comma, .tok (.other "_"), .tok .colon, .tok (.other "\"foo\"")] =
    some (.error [123] (.str "\"foo\"")) := by
  rfl

/-! `err_typed2`, src/macros.rs:730-737 -/

example : result [] [.tok (.ident "i"), .tok .semi, .tok (.ident "err"), .tok .at, .group .paren [], .tok .comma, .tok (.other "&"), .tok (.ident "str"), .tok .colon, .tok (.other "\"foo\"")] =
    some (.error [123] (.str "\"foo\"")) := by
  rfl

/-! `action`, src/macros.rs:739-750 -/

def action_fns : Fns := [
    ("doit", ⟨[], none, none, true, [.tok (.other "\"doit\"")]⟩)]

example : result action_fns [.tok (.ident "i"), .tok .semi, .tok (.ident "doit"), .group .paren []] =
    some (.data ⟨.default, [123]⟩ (.str "\"doit\"")) := by
  rfl

/-! `action2`, src/macros.rs:752-763 -/

def action2_fns : Fns := [
    ("doit", ⟨["p"], none, none, true, [.tok (.ident "p")]⟩)]

example : result action2_fns [.tok (.ident "i"), .tok .semi, .tok (.ident "doit"), .group .paren [.tok (.other "\"doit\"")]] =
    some (.data ⟨.default, [123]⟩ (.str "\"doit\"")) := by
  rfl

/-! `action3`, src/macros.rs:765-776 -/

def action3_fns : Fns := [
    ("doit", ⟨["p", "u"], none, none, true, [.group .paren [.tok (.ident "p"), .tok .comma, .tok (.ident "u")]]⟩)]

example : result action3_fns [.tok (.ident "i"), .tok .semi, .tok (.ident "doit"), .group .paren [.tok (.other "\"doit\""), .tok .comma, .tok (.other "1337")]] =
    some (.data ⟨.default, [123]⟩ (.pair (.str "\"doit\"") (.int 1337))) := by
  rfl

/-! `two_actions`, src/macros.rs:778-796 -/

def two_actions_fns : Fns := [
    ("doit", ⟨[], (some 123), (some 321), true, [.tok (.other "1")]⟩),
    ("something", ⟨[], (some 321), (some 123), true, [.tok (.other "2")]⟩)]

example : result two_actions_fns [.tok (.ident "i"), .tok .semi, .tok (.ident "doit"), .group .paren [], .tok .semi, .tok (.ident "something"), .group .paren []] =
    some (.data ⟨.default, [123]⟩ (.int 2)) := by
  rfl

/-! `two_actions2`, src/macros.rs:798-816 -/

def two_actions2_fns : Fns := [
    ("doit", ⟨["n"], (some 123), (some 321), true, [.tok (.ident "n")]⟩),
    ("something", ⟨["n"], (some 321), (some 123), true, [.tok (.ident "n")]⟩)]

example : result two_actions2_fns [.tok (.ident "i"), .tok .semi, .tok (.ident "doit"), .group .paren [.tok (.other "22")], .tok .semi, .tok (.ident "something"), .group .paren [.tok (.other "33")]] =
    some (.data ⟨.default, [123]⟩ (.int 33)) := by
  rfl

/-! `two_actions3`, src/macros.rs:818-836 -/

def two_actions3_fns : Fns := [
    ("doit", ⟨["n", "x"], (some 123), (some 321), true, [.group .paren [.tok (.ident "n"), .tok .comma, .tok (.ident "x")]]⟩),
    ("something", ⟨["n", "x"], (some 321), (some 123), true, [.group .paren [.tok (.ident "n"), .tok .comma, .tok (.ident "x")]]⟩)]

example : result two_actions3_fns [.tok (.ident "i"), .tok .semi, .tok (.ident "doit"), .group .paren [.tok (.other "22"), .tok .comma, .tok (.other "1")], .tok .semi, .tok (.ident "something"), .group .paren [.tok (.other "33"), .tok .comma, .tok (.other "2")]] =
    some (.data ⟨.default, [123]⟩ (.pair (.int 33) (.int 2))) := by
  rfl

/-! `action_ret`, src/macros.rs:838-854 -/

def action_ret_fns : Fns := [
    ("doit", ⟨["x"], (some 123), (some 321), true, [.tok (.ident "x")]⟩)]

example : result action_ret_fns [.tok (.ident "i1"), .tok .semi, .tok (.ident "doit"), .group .paren [.tok (.other "2")], .tok .semi, .tok (.ident "ret"), .tok (.other "5")] =
    some (.data ⟨.default, [321]⟩ (.int 5)) := by
  rfl

example : result action_ret_fns [.tok (.ident "i2"), .tok .semi, .tok (.ident "doit"), .group .paren [.tok (.other "2")], .tok .semi, .tok (.ident "ret"), .tok .at, .tok (.other "_"), .tok .comma, .group .paren [], .tok .colon, .tok (.other "5")] =
    some (.data ⟨.default, [321]⟩ (.int 5)) := by
  rfl

/-! `action_ret2`, src/macros.rs:856-877 -/

def action_ret2_fns : Fns := [
    ("doit", ⟨["x"], (some 123), (some 321), true, [.tok (.ident "x")]⟩),
    ("something", ⟨["n", "x"], (some 321), (some 111), true, [.group .paren [.tok (.ident "n"), .tok .comma, .tok (.ident "x")]]⟩)]

example : result action_ret2_fns [.tok (.ident "i1"), .tok .semi, .tok (.ident "doit"), .group .paren [.tok (.other "2")], .tok .semi, .tok (.ident "something"), .group .paren [.tok (.other "4"), .tok .comma, .tok (.other "5")], .tok .semi, .tok (.ident "ret"), .tok (.other "5")] =
    some (.data ⟨.default, [111]⟩ (.int 5)) := by
  rfl

example : result action_ret2_fns [.tok (.ident "i2"), .tok .semi, .tok (.ident "doit"), .group .paren [.tok (.other "2")], .tok .semi, .tok (.ident "something"), .group .paren [.tok (.other "4"), .tok .comma, .tok (.other "5")], .tok .semi, .tok (.ident "ret"), .tok .at, .tok (.other "_"), .tok .comma, .group .paren [], .tok .colon, .tok (.other "5")] =
    some (.data ⟨.default, [111]⟩ (.int 5)) := by
  rfl

/-! `bind`, src/macros.rs:879-895 -/

def bind_fns : Fns := [
    ("doit", ⟨["x"], (some 123), (some 321), true, [.tok (.ident "x")]⟩)]

example : result bind_fns [.tok (.ident "i1"), .tok .semi, .tok .kwLet, .tok (.ident "n"), .tok .eq, .tok (.ident "doit"), .group .paren [.tok (.other "40")], .tok .semi, .tok (.ident "ret"), .tok (.ident "n"), .tok (.other "+"), .tok (.other "2")] =
    some (.data ⟨.default, [321]⟩ (.int 42)) := by
  rfl

example : result bind_fns [.tok (.ident "i2"), .tok .semi, .tok .kwLet, .tok (.ident "n"), .tok .eq, .tok (.ident "doit"), .group .paren [.tok (.other "40")], .tok .semi, .tok (.ident "ret"), .tok .at, .tok (.other "_"), .tok .comma, .group .paren [], .tok .colon, .tok (.ident "n"), .tok (.other "+"), .tok (.other "2")] =
    some (.data ⟨.default, [321]⟩ (.int 42)) := by
  rfl

/-! `bind2`, src/macros.rs:897-919 -/

def bind2_fns : Fns := [
    ("doit", ⟨["x"], (some 123), (some 321), true, [.tok (.ident "x")]⟩),
    ("something", ⟨["n", "x"], (some 321), (some 111), true, [.tok (.ident "n"), .tok (.other "-"), .tok (.ident "x"), .tok (.ident "as"), .tok (.ident "i32")]⟩)]

example : result bind2_fns [.tok (.ident "i1"), .tok .semi, .tok .kwLet, .tok (.ident "n"), .tok .eq, .tok (.ident "doit"), .group .paren [.tok (.other "40")], .tok .semi, .tok .kwLet, .tok (.ident "x"), .tok .eq, .tok (.ident "something"), .group .paren [.tok (.ident "n"), .tok .comma, .tok (.other "4")], .tok .semi, .tok (.ident "ret"), .tok (.ident "x"), .tok (.other "+"), .tok (.other "6")] =
    some (.data ⟨.default, [111]⟩ (.int 42)) := by
  rfl

example : result bind2_fns [.tok (.ident "i2"), .tok .semi, .tok .kwLet, .tok (.ident "n"), .tok .eq, .tok (.ident "doit"), .group .paren [.tok (.other "40")], .tok .semi, .tok .kwLet, .tok (.ident "x"), .tok .eq, .tok (.ident "something"), .group .paren [.tok (.ident "n"), .tok .comma, .tok (.other "4")], .tok .semi, .tok (.ident "ret"), .tok .at, .tok (.other "_"), .tok .comma, .group .paren [], .tok .colon, .tok (.ident "x"), .tok (.other "+"), .tok (.other "6")] =
    some (.data ⟨.default, [111]⟩ (.int 42)) := by
  rfl

/-! `bind3`, src/macros.rs:921-937 -/

def bind3_fns : Fns := [
    ("doit", ⟨["x"], (some 123), (some 321), true, [.tok (.ident "x")]⟩)]

example : result bind3_fns [.tok (.ident "i1"), .tok .semi, .tok .kwLet, .tok (.ident "n"), .tok .eq, .tok (.ident "doit"), .group .paren [.tok (.other "40")], .tok .semi, .tok (.ident "err"), .tok (.ident "n"), .tok (.ident "as"), .tok (.ident "u8"), .tok (.other "+"), .tok (.other "2")] =
    some (.error [321] (.int 42)) := by
  rfl

example : result bind3_fns [.tok (.ident "i2"), .tok .semi, .tok .kwLet, .tok (.ident "n"), .tok .eq, .tok (.ident "doit"), .group .paren [.tok (.other "40")], .tok .semi, .tok (.ident "err"), .tok .at, .group .paren [], .tok .comma, .tok (.ident "u8"), .tok .colon, .tok (.ident "n"), .tok (.ident "as"), .tok (.ident "u8"), .tok (.other "+"), .tok (.other "2")] =
    some (.error [321] (.int 42)) := by
  rfl

/-! `bind4`, src/macros.rs:939-961 -/

def bind4_fns : Fns := [
    ("doit", ⟨["x"], (some 123), (some 321), true, [.tok (.ident "x")]⟩),
    ("something", ⟨["n", "x"], (some 321), (some 111), true, [.tok (.ident "n"), .tok (.other "-"), .tok (.ident "x"), .tok (.ident "as"), .tok (.ident "i32")]⟩)]

example : result bind4_fns [.tok (.ident "i1"), .tok .semi, .tok .kwLet, .tok (.ident "n"), .tok .eq, .tok (.ident "doit"), .group .paren [.tok (.other "40")], .tok .semi, .tok .kwLet, .tok (.ident "x"), .tok .eq, .tok (.ident "something"), .group .paren [.tok (.ident "n"), .tok .comma, .tok (.other "4")], .tok .semi, .tok (.ident "err"), .tok (.ident "x"), .tok (.ident "as"), .tok (.ident "u8"), .tok (.other "+"), .tok (.other "6")] =
    some (.error [111] (.int 42)) := by
  rfl

example : result bind4_fns [.tok (.ident "i2"), .tok .semi, .tok .kwLet, .tok (.ident "n"), .tok .eq, .tok (.ident "doit"), .group .paren [.tok (.other "40")], .tok .semi, .tok .kwLet, .tok (.ident "x"), .tok .eq, .tok (.ident "something"), .group .paren [.tok (.ident "n"), .tok .comma, .tok (.other "4")], .tok .semi, .tok (.ident "err"), .tok .at, .group .paren [], .tok .comma, .tok (.ident "u8"), .tok .colon, .tok (.ident "x"), .tok (.ident "as"), .tok (.ident "u8"), .tok (.other "+"), .tok (.other "6")] =
    some (.error [111] (.int 42)) := by
  rfl

/-! `bind_then`, src/macros.rs:963-984 -/

def bind_then_fns : Fns := [
    ("doit", ⟨["x"], (some 111), (some 321), true, [.tok (.ident "x")]⟩),
    ("something", ⟨["n", "x"], (some 123), (some 111), true, [.tok (.ident "n"), .tok (.other "-"), .tok (.ident "x"), .tok (.ident "as"), .tok (.ident "i32")]⟩)]

example : result bind_then_fns [.tok (.ident "i1"), .tok .semi, .tok .kwLet, .tok (.ident "x"), .tok .eq, .tok (.ident "something"), .group .paren [.tok (.other "6"), .tok .comma, .tok (.other "4")], .tok .semi, .tok (.ident "doit"), .group .paren [.tok (.ident "x")]] =
    some (.data ⟨.default, [321]⟩ (.int 2)) := by
  rfl

example : result bind_then_fns [.tok (.ident "i2"), .tok .semi, .tok .kwLet, .tok (.ident "x"), .tok .eq, .tok (.ident "something"), .group .paren [.tok (.other "6"), .tok .comma, .tok (.other "4")], .tok .semi, .tok (.ident "doit"), .group .paren [.tok (.ident "x")]] =
    some (.data ⟨.default, [321]⟩ (.int 2)) := by
  rfl

/-! `bind_then2`, src/macros.rs:986-1007 -/

def bind_then2_fns : Fns := [
    ("doit", ⟨["x"], (some 111), (some 321), true, [.tok (.ident "x")]⟩),
    ("something", ⟨["n", "x"], (some 123), (some 111), true, [.tok (.ident "n"), .tok (.other "-"), .tok (.ident "x"), .tok (.ident "as"), .tok (.ident "i32")]⟩)]

example : result bind_then2_fns [.tok (.ident "i1"), .tok .semi, .tok .kwLet, .tok (.ident "_x"), .tok .eq, .tok (.ident "something"), .group .paren [.tok (.other "6"), .tok .comma, .tok (.other "4")], .tok .semi, .tok (.ident "doit"), .group .paren [.tok (.other "3")]] =
    some (.data ⟨.default, [321]⟩ (.int 3)) := by
  rfl

example : result bind_then2_fns [.tok (.ident "i2"), .tok .semi, .tok .kwLet, .tok (.ident "_x"), .tok .eq, .tok (.ident "something"), .group .paren [.tok (.other "6"), .tok .comma, .tok (.other "4")], .tok .semi, .tok (.ident "doit"), .group .paren [.tok (.other "3")]] =
    some (.data ⟨.default, [321]⟩ (.int 3)) := by
  rfl

/-! `bind_type`, src/macros.rs:1009-1025 -/

def bind_type_fns : Fns := [
    ("doit", ⟨["x"], (some 123), (some 321), true, [.tok (.ident "x")]⟩)]

example : result bind_type_fns [.tok (.ident "i1"), .tok .semi, .tok .kwLet, .tok (.ident "n"), .tok .colon, .tok (.ident "u64"), .tok .eq, .tok (.ident "doit"), .group .paren [.tok (.other "42")], .tok .semi, .tok (.ident "ret"), .tok (.ident "n")] =
    some (.data ⟨.default, [321]⟩ (.int 42)) := by
  rfl

example : result bind_type_fns [.tok (.ident "i2"), .tok .semi, .tok .kwLet, .tok (.ident "n"), .tok .colon, .tok (.ident "u64"), .tok .eq, .tok (.ident "doit"), .group .paren [.tok (.other "42")], .tok .semi, .tok (.ident "ret"), .tok .at, .tok (.other "_"), .tok .comma, .group .paren [], .tok .colon, .tok (.ident "n")] =
    some (.data ⟨.default, [321]⟩ (.int 42)) := by
  rfl

/-! `bind_pattern`, src/macros.rs:1027-1043 -/

def bind_pattern_fns : Fns := [
    ("something", ⟨["n", "x"], (some 123), (some 111), true, [.group .paren [.tok (.ident "n"), .tok .comma, .tok (.ident "x")]]⟩)]

example : result bind_pattern_fns [.tok (.ident "i1"), .tok .semi, .tok .kwLet, .group .paren [.tok (.ident "x"), .tok .comma, .tok (.ident "y")], .tok .eq, .tok (.ident "something"), .group .paren [.tok (.other "2"), .tok .comma, .tok (.other "4")], .tok .semi, .tok (.ident "ret"), .tok (.ident "x"), .tok (.other "+"), .tok (.ident "y")] =
    some (.data ⟨.default, [111]⟩ (.int 6)) := by
  rfl

example : result bind_pattern_fns [.tok (.ident "i2"), .tok .semi, .tok .kwLet, .group .paren [.tok (.ident "x"), .tok .comma, .tok (.ident "y")], .tok .eq, .tok (.ident "something"), .group .paren [.tok (.other "2"), .tok .comma, .tok (.other "4")], .tok .semi, .tok (.ident "ret"), .tok .at, .tok (.other "_"), .tok .comma, .group .paren [], .tok .colon, .tok (.ident "x"), .tok (.other "+"), .tok (.ident "y")] =
    some (.data ⟨.default, [111]⟩ (.int 6)) := by
  rfl

/-! `bind_pattern2`, src/macros.rs:1045-1068 -/

def bind_pattern2_fns : Fns := [
    ("doit", ⟨["x"], (some 123), (some 321), true, [.tok (.ident "x")]⟩),
    ("something", ⟨["n", "x"], (some 321), (some 111), true, [.group .paren [.tok (.ident "n"), .tok .comma, .tok (.ident "x")]]⟩)]

example : result bind_pattern2_fns [.tok (.ident "i1"), .tok .semi, .tok .kwLet, .tok (.ident "n"), .tok .eq, .tok (.ident "doit"), .group .paren [.tok (.other "40")], .tok .semi, .tok .kwLet, .group .paren [.tok (.ident "x"), .tok .comma, .tok (.ident "y")], .tok .eq, .tok (.ident "something"), .group .paren [.tok (.ident "n"), .tok .comma, .tok (.other "4")], .tok .semi, .tok (.ident "ret"), .tok (.ident "x"), .tok (.other "+"), .tok (.ident "y"), .tok (.ident "as"), .tok (.ident "i32")] =
    some (.data ⟨.default, [111]⟩ (.int 44)) := by
  rfl

example : result bind_pattern2_fns [.tok (.ident "i2"), .tok .semi, .tok .kwLet, .tok (.ident "n"), .tok .eq, .tok (.ident "doit"), .group .paren [.tok (.other "40")], .tok .semi, .tok .kwLet, .group .paren [.tok (.ident "x"), .tok .comma, .tok (.ident "y")], .tok .eq, .tok (.ident "something"), .group .paren [.tok (.ident "n"), .tok .comma, .tok (.other "4")], .tok .semi, .tok (.ident "ret"), .tok .at, .tok (.other "_"), .tok .comma, .group .paren [], .tok .colon, .tok (.ident "x"), .tok (.other "+"), .tok (.ident "y"), .tok (.ident "as"), .tok (.ident "i32")] =
    some (.data ⟨.default, [111]⟩ (.int 44)) := by
  rfl

/-! `action_err`, src/macros.rs:1070-1086 -/

def action_err_fns : Fns := [
    ("doit", ⟨["x"], (some 123), (some 321), true, [.tok (.ident "x")]⟩)]

example : result action_err_fns [.tok (.ident "i1"), .tok .semi, .tok (.ident "doit"), .group .paren [.tok (.other "2")], .tok .semi, .tok (.ident "err"), .tok (.other "5")] =
    some (.error [321] (.int 5)) := by
  rfl

example : result action_err_fns [.tok (.ident "i2"), .tok .semi, .tok (.ident "doit"), .group .paren [.tok (.other "2")], .tok .semi, .tok (.ident "err"), .tok .at, .group .paren [], .tok .comma, .tok (.ident "u8"), .tok .colon, .tok (.other "5")] =
    some (.error [321] (.int 5)) := by
  rfl

/-! `action_err2`, src/macros.rs:1088-1109 -/

def action_err2_fns : Fns := [
    ("doit", ⟨["x"], (some 123), (some 321), true, [.tok (.ident "x")]⟩),
    ("something", ⟨["n", "x"], (some 321), (some 111), true, [.group .paren [.tok (.ident "n"), .tok .comma, .tok (.ident "x")]]⟩)]

example : result action_err2_fns [.tok (.ident "i1"), .tok .semi, .tok (.ident "doit"), .group .paren [.tok (.other "2")], .tok .semi, .tok (.ident "something"), .group .paren [.tok (.other "4"), .tok .comma, .tok (.other "5")], .tok .semi, .tok (.ident "err"), .tok (.other "5")] =
    some (.error [111] (.int 5)) := by
  rfl

example : result action_err2_fns [.tok (.ident "i2"), .tok .semi, .tok (.ident "doit"), .group .paren [.tok (.other "2")], .tok .semi, .tok (.ident "something"), .group .paren [.tok (.other "4"), .tok .comma, .tok (.other "5")], .tok .semi, .tok (.ident "err"), .tok .at, .group .paren [], .tok .comma, .tok (.ident "u8"), .tok .colon, .tok (.other "5")] =
    some (.error [111] (.int 5)) := by
  rfl

/-! `inline_action`, src/macros.rs:1111-1125 -/

example : result [] [.tok (.ident "i"), .tok .semi, .tok (.ident "s"), .tok .arrow, .group .brace [.tok (.ident "assert_eq"), .tok (.other "!"), .group .paren [.tok (.ident "s"), .tok .comma, .tok (.ident "Input"), .group .paren [.tok (.other "123")]], .tok .semi, .tok (.ident "s"), .tok (.other "."), .tok (.ident "ret"), .tok (.other "::"), .tok .lt, .tok (.other "_"), .tok .comma, .group .paren [], .tok .gt, .group .paren [.tok (.other "23")]]] =
    some (.data ⟨.default, [123]⟩ (.int 23)) := by
  rfl

/-! `inline_action2`, src/macros.rs:1127-1148 -/

def inline_action2_fns : Fns := [
    ("doit", ⟨[], (some 123), (some 321), true, [.tok (.other "2")]⟩)]

example : result inline_action2_fns [.tok (.ident "i"), .tok .semi, .tok (.ident "doit"), .group .paren [], .tok .semi, .tok (.ident "s"), .tok .arrow, .group .brace [.tok (.ident "assert_eq"), .tok (.other "!"), .group .paren [.tok (.ident "s"), .tok .comma, .tok (.ident "Input"), .group .paren [.tok (.other "321")]], .tok .semi, .tok (.ident "s"), .tok (.other "."), .tok (.ident "ret"), .tok (.other "::"), .tok .lt, .tok (.other "_"), .tok .comma, .group .paren [], .tok .gt, .group .paren [.tok (.other "23")]]] =
    some (.data ⟨.default, [321]⟩ (.int 23)) := by
  rfl

/-! `inline_action3`, src/macros.rs:1150-1159 -/

example : result [] [.tok (.ident "i"), .tok .semi, .tok (.ident "s"), .tok .arrow, .tok (.ident "s"), .tok (.other "."), .tok (.ident "ret"), .tok (.other "::"), .tok .lt, .tok (.ident "u8"), .tok .comma, .group .paren [], .tok .gt, .group .paren [.tok (.other "23")]] =
    some (.data ⟨.default, [123]⟩ (.int 23)) := by
  rfl

/-! `inline_action_bind`, src/macros.rs:1161-1175 -/

example : result [] [.tok (.ident "i"), .tok .semi, .tok .kwLet, .tok (.ident "v"), .tok .eq, .tok (.ident "s"), .tok .arrow, .group .brace [.tok (.ident "assert_eq"), .tok (.other "!"), .group .paren [.tok (.ident "s"), .tok .comma, .tok (.ident "Input"), .group .paren [.tok (.other "123")]], .tok .semi, .tok (.ident "s"), .tok (.other "."), .tok (.ident "ret"), .group .paren [.tok (.other "23")]], .tok .semi, .tok (.ident "ret"), .tok .at, .tok (.ident "u32"), .tok .comma, .group .paren [], .tok .colon, .tok (.ident "v"), .tok (.other "+"), .tok (.other "2")] =
    some (.data ⟨.default, [123]⟩ (.int 25)) := by
  rfl

/-! `inline_action_bind2`, src/macros.rs:1177-1199 -/

def inline_action_bind2_fns : Fns := [
    ("doit", ⟨[], (some 123), (some 321), true, [.tok (.other "2")]⟩)]

example : result inline_action_bind2_fns [.tok (.ident "i"), .tok .semi, .tok .kwLet, .tok (.ident "n"), .tok .eq, .tok (.ident "doit"), .group .paren [], .tok .semi, .tok .kwLet, .tok (.ident "v"), .tok .eq, .tok (.ident "s"), .tok .arrow, .group .brace [.tok (.ident "assert_eq"), .tok (.other "!"), .group .paren [.tok (.ident "n"), .tok .comma, .tok (.other "2")], .tok .semi, .tok (.ident "assert_eq"), .tok (.other "!"), .group .paren [.tok (.ident "s"), .tok .comma, .tok (.ident "Input"), .group .paren [.tok (.other "321")]], .tok .semi, .tok (.ident "s"), .tok (.other "."), .tok (.ident "ret"), .group .paren [.tok (.other "23"), .tok (.other "+"), .tok (.ident "n")]], .tok .semi, .tok (.ident "ret"), .tok .at, .tok (.ident "u32"), .tok .comma, .group .paren [], .tok .colon, .tok (.ident "v"), .tok (.other "+"), .tok (.other "3")] =
    some (.data ⟨.default, [321]⟩ (.int 28)) := by
  rfl

/-! `expr_ret`, src/macros.rs:1201-1211 -/

example : result [] [.tok (.ident "i1"), .tok .semi, .tok .kwLet, .tok (.ident "a"), .tok .eq, .tok (.ident "ret"), .tok (.other "\"test\""), .tok .semi, .tok (.ident "ret"), .tok (.ident "a")] =
    some (.data ⟨.default, [123]⟩ (.str "\"test\"")) := by
  rfl

example : result [] [.tok (.ident "i2"), .tok .semi, .tok (.ident "ret"), .tok (.other "\"throwaway\""), .tok .semi, .tok (.ident "ret"), .tok (.other "\"foo\"")] =
    some (.data ⟨.default, [123]⟩ (.str "\"foo\"")) := by
  rfl

/-! `expr_err`, src/macros.rs:1213-1225 -/

example : result [] [.tok (.ident "i1"), .tok .semi, .tok .kwLet, .tok (.ident "a"), .tok .eq, .tok (.ident "err"), .tok (.other "\"error\""), .tok .semi, .tok (.ident "ret"), .tok (.ident "a")] =
    some (.error [123] (.str "\"error\"")) := by
  rfl

example : result [] [.tok (.ident "i2"), .tok .semi, .tok (.ident "err"), .tok .at, .group .paren [], .tok .comma, .tok (.other "_"), .tok .colon, .tok (.other "\"this\""), .tok .semi, .tok (.ident "err"), .tok (.other "\"not this\"")] =
    some (.error [123] (.str "\"this\"")) := by
  rfl

/-! `alt`, src/macros.rs:1227-1254 -/

def alt_fns : Fns := [
    ("fail", ⟨[], (some 123), (some 456), false, [.group .paren []]⟩),
    ("doit", ⟨[], (some 123), (some 321), true, [.tok (.other "2")]⟩)]

example : result alt_fns [.tok (.ident "i1"), .tok .semi, .tok (.ident "fail"), .group .paren [], .tok .lt, .tok .bar, .tok .gt, .tok (.ident "doit"), .group .paren []] =
    some (.data ⟨.default, [321]⟩ (.int 2)) := by
  rfl

example : result alt_fns [.tok (.ident "i2"), .tok .semi, .tok (.ident "doit"), .group .paren [], .tok .lt, .tok .bar, .tok .gt, .tok (.ident "fail"), .group .paren []] =
    some (.data ⟨.default, [321]⟩ (.int 2)) := by
  rfl

example : result alt_fns [.tok (.ident "i3"), .tok .semi, .tok (.ident "doit"), .group .paren [], .tok .lt, .tok .bar, .tok .gt, .tok (.ident "doit"), .group .paren []] =
    some (.data ⟨.default, [321]⟩ (.int 2)) := by
  rfl

example : result alt_fns [.tok (.ident "i4"), .tok .semi, .tok (.ident "fail"), .group .paren [], .tok .lt, .tok .bar, .tok .gt, .tok (.ident "fail"), .group .paren []] =
    some (.error [456] .unit) := by
  rfl

/-! `alt2`, src/macros.rs:1256-1275 -/

def alt2_fns : Fns := [
    ("fail", ⟨[], (some 123), (some 456), false, [.group .paren []]⟩),
    ("doit", ⟨[], (some 123), (some 321), true, [.tok (.other "2")]⟩)]

example : result alt2_fns [.tok (.ident "i"), .tok .semi, .tok (.ident "fail"), .group .paren [], .tok .lt, .tok .bar, .tok .gt, .tok (.ident "fail"), .group .paren [], .tok .lt, .tok .bar, .tok .gt, .tok (.ident "doit"), .group .paren []] =
    some (.data ⟨.default, [321]⟩ (.int 2)) := by
  rfl

/-! `chain_alt`, src/macros.rs:1277-1307 -/

def chain_alt_fns : Fns := [
    ("fail", ⟨[], (some 123), (some 456), false, [.group .paren []]⟩),
    ("doit", ⟨[], (some 123), (some 321), true, [.tok (.other "2")]⟩),
    ("next", ⟨[], (some 321), (some 322), true, [.tok (.other "42")]⟩)]

example : result chain_alt_fns [.tok (.ident "i1"), .tok .semi, .tok (.ident "fail"), .group .paren [], .tok .lt, .tok .bar, .tok .gt, .tok (.ident "doit"), .group .paren [], .tok .semi, .tok (.ident "next"), .group .paren []] =
    some (.data ⟨.default, [322]⟩ (.int 42)) := by
  rfl

example : result chain_alt_fns [.tok (.ident "i2"), .tok .semi, .tok (.ident "doit"), .group .paren [], .tok .lt, .tok .bar, .tok .gt, .tok (.ident "fail"), .group .paren [], .tok .semi, .tok (.ident "next"), .group .paren []] =
    some (.data ⟨.default, [322]⟩ (.int 42)) := by
  rfl

example : result chain_alt_fns [.tok (.ident "i3"), .tok .semi, .tok (.ident "fail"), .group .paren [], .tok .lt, .tok .bar, .tok .gt, .tok (.ident "fail"), .group .paren [], .tok .semi, .tok (.ident "next"), .group .paren []] =
    some (.error [456] .unit) := by
  rfl

/-! `precedence_skip_then`, src/macros.rs:1309-1367 -/

def precedence_skip_then_fns : Fns := [
    ("a", ⟨[], (some 123), (some 321), true, [.tok (.other "2")]⟩),
    ("b", ⟨[], (some 321), (some 322), true, [.tok (.other "42")]⟩),
    ("c", ⟨[], (some 322), (some 323), true, [.tok (.other "43")]⟩)]

example : result precedence_skip_then_fns [.tok (.ident "i1"), .tok .semi, .tok (.ident "a"), .group .paren [], .tok .lt, .tok .star, .tok (.ident "b"), .group .paren [], .tok .lt, .tok .star, .tok (.ident "c"), .group .paren []] =
    some (.data ⟨.default, [323]⟩ (.int 2)) := by
  rfl

example : result precedence_skip_then_fns [.tok (.ident "i2"), .tok .semi, .tok (.ident "a"), .group .paren [], .tok .lt, .tok .star, .tok (.ident "b"), .group .paren [], .tok .shr, .tok (.ident "c"), .group .paren []] =
    some (.data ⟨.default, [323]⟩ (.int 43)) := by
  rfl

example : result precedence_skip_then_fns [.tok (.ident "i3"), .tok .semi, .tok (.ident "a"), .group .paren [], .tok .shr, .tok (.ident "b"), .group .paren [], .tok .lt, .tok .star, .tok (.ident "c"), .group .paren []] =
    some (.data ⟨.default, [323]⟩ (.int 42)) := by
  rfl

example : result precedence_skip_then_fns [.tok (.ident "i4"), .tok .semi, .tok (.ident "a"), .group .paren [], .tok .shr, .tok (.ident "b"), .group .paren [], .tok .shr, .tok (.ident "c"), .group .paren []] =
    some (.data ⟨.default, [323]⟩ (.int 43)) := by
  rfl

example : result precedence_skip_then_fns [.tok (.ident "i5"), .tok .semi, .group .paren [.tok (.ident "a"), .group .paren [], .tok .lt, .tok .star, .tok (.ident "b"), .group .paren []], .tok .lt, .tok .star, .tok (.ident "c"), .group .paren []] =
    some (.data ⟨.default, [323]⟩ (.int 2)) := by
  rfl

example : result precedence_skip_then_fns [.tok (.ident "i6"), .tok .semi, .tok (.ident "a"), .group .paren [], .tok .lt, .tok .star, .group .paren [.tok (.ident "b"), .group .paren [], .tok .lt, .tok .star, .tok (.ident "c"), .group .paren []]] =
    some (.data ⟨.default, [323]⟩ (.int 2)) := by
  rfl

example : result precedence_skip_then_fns [.tok (.ident "i7"), .tok .semi, .group .paren [.tok (.ident "a"), .group .paren [], .tok .lt, .tok .star, .tok (.ident "b"), .group .paren []], .tok .shr, .tok (.ident "c"), .group .paren []] =
    some (.data ⟨.default, [323]⟩ (.int 43)) := by
  rfl

example : result precedence_skip_then_fns [.tok (.ident "i_8"), .tok .semi, .tok (.ident "a"), .group .paren [], .tok .lt, .tok .star, .group .paren [.tok (.ident "b"), .group .paren [], .tok .shr, .tok (.ident "c"), .group .paren []]] =
    some (.data ⟨.default, [323]⟩ (.int 2)) := by
  rfl

example : result precedence_skip_then_fns [.tok (.ident "i9"), .tok .semi, .group .paren [.tok (.ident "a"), .group .paren [], .tok .shr, .tok (.ident "b"), .group .paren []], .tok .lt, .tok .star, .tok (.ident "c"), .group .paren []] =
    some (.data ⟨.default, [323]⟩ (.int 42)) := by
  rfl

example : result precedence_skip_then_fns [.tok (.ident "i10"), .tok .semi, .tok (.ident "a"), .group .paren [], .tok .shr, .group .paren [.tok (.ident "b"), .group .paren [], .tok .lt, .tok .star, .tok (.ident "c"), .group .paren []]] =
    some (.data ⟨.default, [323]⟩ (.int 42)) := by
  rfl

example : result precedence_skip_then_fns [.tok (.ident "i11"), .tok .semi, .group .paren [.tok (.ident "a"), .group .paren [], .tok .shr, .tok (.ident "b"), .group .paren []], .tok .shr, .tok (.ident "c"), .group .paren []] =
    some (.data ⟨.default, [323]⟩ (.int 43)) := by
  rfl

example : result precedence_skip_then_fns [.tok (.ident "i12"), .tok .semi, .tok (.ident "a"), .group .paren [], .tok .shr, .group .paren [.tok (.ident "b"), .group .paren [], .tok .shr, .tok (.ident "c"), .group .paren []]] =
    some (.data ⟨.default, [323]⟩ (.int 43)) := by
  rfl

/-! `precedence_skip_alt`, src/macros.rs:1369-1433 -/

def precedence_skip_alt_fns : Fns := [
    ("a", ⟨[], (some 123), (some 321), true, [.tok (.other "2")]⟩),
    ("b", ⟨[], (some 321), (some 322), true, [.tok (.other "42")]⟩),
    ("c", ⟨[], (some 322), (some 323), true, [.tok (.other "43")]⟩),
    ("c_a", ⟨[], (some 321), (some 323), true, [.tok (.other "43")]⟩)]

example : result precedence_skip_alt_fns [.tok (.ident "i1"), .tok .semi, .tok (.ident "a"), .group .paren [], .tok .lt, .tok .star, .tok (.ident "b"), .group .paren [], .tok .lt, .tok .star, .tok (.ident "c"), .group .paren []] =
    some (.data ⟨.default, [323]⟩ (.int 2)) := by
  rfl

example : result precedence_skip_alt_fns [.tok (.ident "i2"), .tok .semi, .tok (.ident "a"), .group .paren [], .tok .lt, .tok .star, .tok (.ident "b"), .group .paren [], .tok .lt, .tok .bar, .tok .gt, .tok (.ident "c"), .group .paren []] =
    some (.data ⟨.default, [322]⟩ (.int 2)) := by
  rfl

example : result precedence_skip_alt_fns [.tok (.ident "i3"), .tok .semi, .tok (.ident "a"), .group .paren [], .tok .lt, .tok .bar, .tok .gt, .tok (.ident "b"), .group .paren [], .tok .lt, .tok .star, .tok (.ident "c"), .group .paren []] =
    some (.data ⟨.default, [321]⟩ (.int 2)) := by
  rfl

example : result precedence_skip_alt_fns [.tok (.ident "i4"), .tok .semi, .tok (.ident "a"), .group .paren [], .tok .lt, .tok .bar, .tok .gt, .tok (.ident "b"), .group .paren [], .tok .lt, .tok .bar, .tok .gt, .tok (.ident "c"), .group .paren []] =
    some (.data ⟨.default, [321]⟩ (.int 2)) := by
  rfl

example : result precedence_skip_alt_fns [.tok (.ident "i5"), .tok .semi, .group .paren [.tok (.ident "a"), .group .paren [], .tok .lt, .tok .star, .tok (.ident "b"), .group .paren []], .tok .lt, .tok .star, .tok (.ident "c"), .group .paren []] =
    some (.data ⟨.default, [323]⟩ (.int 2)) := by
  rfl

example : result precedence_skip_alt_fns [.tok (.ident "i6"), .tok .semi, .group .paren [.tok (.ident "a"), .group .paren [], .tok .lt, .tok .star, .tok (.ident "b"), .group .paren []], .tok .lt, .tok .bar, .tok .gt, .tok (.ident "c"), .group .paren []] =
    some (.data ⟨.default, [322]⟩ (.int 2)) := by
  rfl

example : result precedence_skip_alt_fns [.tok (.ident "i7"), .tok .semi, .group .paren [.tok (.ident "a"), .group .paren [], .tok .lt, .tok .bar, .tok .gt, .tok (.ident "b"), .group .paren []], .tok .lt, .tok .star, .tok (.ident "c_a"), .group .paren []] =
    some (.data ⟨.default, [323]⟩ (.int 2)) := by
  rfl

example : result precedence_skip_alt_fns [.tok (.ident "i_8"), .tok .semi, .group .paren [.tok (.ident "a"), .group .paren [], .tok .lt, .tok .bar, .tok .gt, .tok (.ident "b"), .group .paren []], .tok .lt, .tok .bar, .tok .gt, .tok (.ident "c"), .group .paren []] =
    some (.data ⟨.default, [321]⟩ (.int 2)) := by
  rfl

example : result precedence_skip_alt_fns [.tok (.ident "i9"), .tok .semi, .tok (.ident "a"), .group .paren [], .tok .lt, .tok .star, .group .paren [.tok (.ident "b"), .group .paren [], .tok .lt, .tok .star, .tok (.ident "c"), .group .paren []]] =
    some (.data ⟨.default, [323]⟩ (.int 2)) := by
  rfl

example : result precedence_skip_alt_fns [.tok (.ident "i10"), .tok .semi, .tok (.ident "a"), .group .paren [], .tok .lt, .tok .star, .group .paren [.tok (.ident "b"), .group .paren [], .tok .lt, .tok .bar, .tok .gt, .tok (.ident "c"), .group .paren []]] =
    some (.data ⟨.default, [322]⟩ (.int 2)) := by
  rfl

example : result precedence_skip_alt_fns [.tok (.ident "i11"), .tok .semi, .tok (.ident "a"), .group .paren [], .tok .lt, .tok .bar, .tok .gt, .group .paren [.tok (.ident "b"), .group .paren [], .tok .lt, .tok .star, .tok (.ident "c"), .group .paren []]] =
    some (.data ⟨.default, [321]⟩ (.int 2)) := by
  rfl

example : result precedence_skip_alt_fns [.tok (.ident "i12"), .tok .semi, .tok (.ident "a"), .group .paren [], .tok .lt, .tok .bar, .tok .gt, .group .paren [.tok (.ident "b"), .group .paren [], .tok .lt, .tok .bar, .tok .gt, .tok (.ident "c"), .group .paren []]] =
    some (.data ⟨.default, [321]⟩ (.int 2)) := by
  rfl

/-! `precedence_alt_then`, src/macros.rs:1435-1499 -/

def precedence_alt_then_fns : Fns := [
    ("a", ⟨[], (some 123), (some 321), true, [.tok (.other "2")]⟩),
    ("b", ⟨[], (some 321), (some 322), true, [.tok (.other "42")]⟩),
    ("c", ⟨[], (some 322), (some 323), true, [.tok (.other "43")]⟩),
    ("c_a", ⟨[], (some 321), (some 323), true, [.tok (.other "43")]⟩)]

example : result precedence_alt_then_fns [.tok (.ident "i1"), .tok .semi, .tok (.ident "a"), .group .paren [], .tok .lt, .tok .bar, .tok .gt, .tok (.ident "b"), .group .paren [], .tok .lt, .tok .bar, .tok .gt, .tok (.ident "c"), .group .paren []] =
    some (.data ⟨.default, [321]⟩ (.int 2)) := by
  rfl

example : result precedence_alt_then_fns [.tok (.ident "i2"), .tok .semi, .tok (.ident "a"), .group .paren [], .tok .lt, .tok .bar, .tok .gt, .tok (.ident "b"), .group .paren [], .tok .shr, .tok (.ident "c_a"), .group .paren []] =
    some (.data ⟨.default, [323]⟩ (.int 43)) := by
  rfl

example : result precedence_alt_then_fns [.tok (.ident "i3"), .tok .semi, .tok (.ident "a"), .group .paren [], .tok .shr, .tok (.ident "b"), .group .paren [], .tok .lt, .tok .bar, .tok .gt, .tok (.ident "c"), .group .paren []] =
    some (.data ⟨.default, [322]⟩ (.int 42)) := by
  rfl

example : result precedence_alt_then_fns [.tok (.ident "i4"), .tok .semi, .tok (.ident "a"), .group .paren [], .tok .shr, .tok (.ident "b"), .group .paren [], .tok .shr, .tok (.ident "c"), .group .paren []] =
    some (.data ⟨.default, [323]⟩ (.int 43)) := by
  rfl

example : result precedence_alt_then_fns [.tok (.ident "i5"), .tok .semi, .group .paren [.tok (.ident "a"), .group .paren [], .tok .lt, .tok .bar, .tok .gt, .tok (.ident "b"), .group .paren []], .tok .lt, .tok .bar, .tok .gt, .tok (.ident "c"), .group .paren []] =
    some (.data ⟨.default, [321]⟩ (.int 2)) := by
  rfl

example : result precedence_alt_then_fns [.tok (.ident "i6"), .tok .semi, .group .paren [.tok (.ident "a"), .group .paren [], .tok .lt, .tok .bar, .tok .gt, .tok (.ident "b"), .group .paren []], .tok .shr, .tok (.ident "c_a"), .group .paren []] =
    some (.data ⟨.default, [323]⟩ (.int 43)) := by
  rfl

example : result precedence_alt_then_fns [.tok (.ident "i7"), .tok .semi, .group .paren [.tok (.ident "a"), .group .paren [], .tok .shr, .tok (.ident "b"), .group .paren []], .tok .lt, .tok .bar, .tok .gt, .tok (.ident "c"), .group .paren []] =
    some (.data ⟨.default, [322]⟩ (.int 42)) := by
  rfl

example : result precedence_alt_then_fns [.tok (.ident "i_8"), .tok .semi, .group .paren [.tok (.ident "a"), .group .paren [], .tok .shr, .tok (.ident "b"), .group .paren []], .tok .shr, .tok (.ident "c"), .group .paren []] =
    some (.data ⟨.default, [323]⟩ (.int 43)) := by
  rfl

example : result precedence_alt_then_fns [.tok (.ident "i9"), .tok .semi, .tok (.ident "a"), .group .paren [], .tok .lt, .tok .bar, .tok .gt, .group .paren [.tok (.ident "b"), .group .paren [], .tok .lt, .tok .bar, .tok .gt, .tok (.ident "c"), .group .paren []]] =
    some (.data ⟨.default, [321]⟩ (.int 2)) := by
  rfl

example : result precedence_alt_then_fns [.tok (.ident "i10"), .tok .semi, .tok (.ident "a"), .group .paren [], .tok .lt, .tok .bar, .tok .gt, .group .paren [.tok (.ident "b"), .group .paren [], .tok .shr, .tok (.ident "c_a"), .group .paren []]] =
    some (.data ⟨.default, [321]⟩ (.int 2)) := by
  rfl

example : result precedence_alt_then_fns [.tok (.ident "i11"), .tok .semi, .tok (.ident "a"), .group .paren [], .tok .shr, .group .paren [.tok (.ident "b"), .group .paren [], .tok .lt, .tok .bar, .tok .gt, .tok (.ident "c"), .group .paren []]] =
    some (.data ⟨.default, [322]⟩ (.int 42)) := by
  rfl

example : result precedence_alt_then_fns [.tok (.ident "i12"), .tok .semi, .tok (.ident "a"), .group .paren [], .tok .shr, .group .paren [.tok (.ident "b"), .group .paren [], .tok .shr, .tok (.ident "c"), .group .paren []]] =
    some (.data ⟨.default, [323]⟩ (.int 43)) := by
  rfl

/-! `alt_inline_action`, src/macros.rs:1501-1518 -/

example : result [] [.tok (.ident "i"), .tok .semi, .group .paren [.tok (.ident "input"), .tok .arrow, .group .brace [.tok (.ident "assert_eq"), .tok (.other "!"), .group .paren [.tok (.ident "input"), .tok .comma, .tok (.ident "Input"), .group .paren [.tok (.other "123")]], .tok .semi, .tok (.ident "Data"), .tok (.other "::"), .tok (.ident "Value"), .tok (.other "::"), .tok .lt, .tok (.ident "u32"), .tok .comma, .group .paren [], .tok .gt, .group .paren [.tok (.other "321"), .tok .comma, .tok (.other "21")]]], .tok .lt, .tok .bar, .tok .gt, .group .paren [.tok (.ident "input"), .tok .arrow, .group .brace [.tok (.ident "assert_eq"), .tok (.other "!"), .group .paren [.tok (.ident "input"), .tok .comma, .tok (.ident "Input"), .group .paren [.tok (.other "321")]], .tok .semi, .tok (.ident "Data"), .tok (.other "::"), .tok (.ident "Value"), .group .paren [.tok (.other "333"), .tok .comma, .tok (.other "42")]]]] =
    some (.data ⟨.default, [321]⟩ (.int 21)) := by
  rfl

/-! `then_inline_action`, src/macros.rs:1520-1537 -/

example : result [] [.tok (.ident "i"), .tok .semi, .group .paren [.tok (.ident "input"), .tok .arrow, .group .brace [.tok (.ident "assert_eq"), .tok (.other "!"), .group .paren [.tok (.ident "input"), .tok .comma, .tok (.ident "Input"), .group .paren [.tok (.other "123")]], .tok .semi, .tok (.ident "Data"), .tok (.other "::"), .tok (.ident "Value"), .group .paren [.tok (.other "321"), .tok .comma, .tok (.other "21")]]], .tok .shr, .group .paren [.tok (.ident "input"), .tok .arrow, .group .brace [.tok (.ident "assert_eq"), .tok (.other "!"), .group .paren [.tok (.ident "input"), .tok .comma, .tok (.ident "Input"), .group .paren [.tok (.other "321")]], .tok .semi, .tok (.ident "Data"), .tok (.other "::"), .tok (.ident "Value"), .group .paren [.tok (.other "333"), .tok .comma, .tok (.other "42")]]]] =
    some (.data ⟨.default, [333]⟩ (.int 42)) := by
  rfl

/-! `skip_inline_action`, src/macros.rs:1539-1556 -/

example : result [] [.tok (.ident "i"), .tok .semi, .group .paren [.tok (.ident "input"), .tok .arrow, .group .brace [.tok (.ident "assert_eq"), .tok (.other "!"), .group .paren [.tok (.ident "input"), .tok .comma, .tok (.ident "Input"), .group .paren [.tok (.other "123")]], .tok .semi, .tok (.ident "Data"), .tok (.other "::"), .tok (.ident "Value"), .group .paren [.tok (.other "321"), .tok .comma, .tok (.other "21")]]], .tok .lt, .tok .star, .group .paren [.tok (.ident "input"), .tok .arrow, .group .brace [.tok (.ident "assert_eq"), .tok (.other "!"), .group .paren [.tok (.ident "input"), .tok .comma, .tok (.ident "Input"), .group .paren [.tok (.other "321")]], .tok .semi, .tok (.ident "Data"), .tok (.other "::"), .tok (.ident "Value"), .group .paren [.tok (.other "333"), .tok .comma, .tok (.other "42")]]]] =
    some (.data ⟨.default, [333]⟩ (.int 21)) := by
  rfl

/-! `max_alt`, src/macros.rs:1559-1572 -/

def max_alt_fns : Fns := [
    ("a", ⟨[], (some 123), (some 321), true, [.tok (.other "2")]⟩)]

example : result max_alt_fns [.tok (.ident "i"), .tok .semi, .tok (.ident "a"), .group .paren [], .tok .lt, .tok .bar, .tok .gt, .tok (.ident "a"), .group .paren [], .tok .lt, .tok .bar, .tok .gt, .tok (.ident "a"), .group .paren [], .tok .lt, .tok .bar, .tok .gt, .tok (.ident "a"), .group .paren [], .tok .lt, .tok .bar, .tok .gt, .tok (.ident "a"), .group .paren [], .tok .lt, .tok .bar, .tok .gt, .tok (.ident "a"), .group .paren [], .tok .lt, .tok .bar, .tok .gt, .tok (.ident "a"), .group .paren [], .tok .lt, .tok .bar, .tok .gt, .tok (.ident "a"), .group .paren [], .tok .lt, .tok .bar, .tok .gt, .tok (.ident "a"), .group .paren []] =
    some (.data ⟨.default, [321]⟩ (.int 2)) := by
  rfl

/-! tests/compile-fail/macros_tailing_bind1.rs:13-15, which must not compile -/

example {R : Fragments} (L : R.Lawful) (n : Nat) :
    expand tables R n (.block [.tok .kwLet, .tok (.ident "x"), .tok .eq, .tok (.ident "s"), .tok .arrow, .tok (.ident "s"), .tok (.other "."), .tok (.ident "ret"), .group .paren [.tok (.other "3")]]) = none :=
  (Props.C61_last_statement L (.inl rfl) (Free.not_mem.mpr (by simp)) n).1

/-! tests/compile-fail/macros_tailing_bind2.rs:13-15, which must not compile -/

example {R : Fragments} (L : R.Lawful) (n : Nat) :
    expand tables R n (.block [.tok .kwLet, .tok (.ident "x"), .tok .eq, .tok (.ident "s"), .tok .arrow, .tok (.ident "s"), .tok (.other "."), .tok (.ident "ret"), .tok (.other "::"), .tok .lt, .tok (.ident "u8"), .tok .comma, .group .paren [], .tok .gt, .group .paren [.tok (.other "3")]]) = none :=
  (Props.C61_last_statement L (.inl rfl) (Free.not_mem.mpr (by simp)) n).1

/-! tests/compile-fail/macros_tailing_bind3.rs:13-15, which must not compile -/

example {R : Fragments} (L : R.Lawful) (n : Nat) :
    expand tables R n (.block [.tok .kwLet, .tok (.ident "x"), .tok .eq, .tok (.ident "f"), .group .paren []]) = none :=
  (Props.C61_last_statement L (.inl rfl) (Free.not_mem.mpr (by simp)) n).1

/-! tests/compile-fail/macros_tailing_bind4.rs:13-15, which must not compile -/

example {R : Fragments} (L : R.Lawful) (n : Nat) :
    expand tables R n (.block [.tok .kwLet, .tok (.ident "x"), .tok .eq, .tok (.ident "f"), .group .paren []]) = none :=
  (Props.C61_last_statement L (.inl rfl) (Free.not_mem.mpr (by simp)) n).1

end Chomp.Tests.Macro
