import Verif.Rust.MacroSyntax

/-
The rules of the macros in /repo/src/macros.rs. Written by tools/macros.py; do not edit.
-/

namespace Chomp.MacroRules.Text

/-- `parse!`, src/macros.rs:428. -/
def parse : List Arm := [
  /- 429 -/
  ⟨[.rep "t" .tt none false],
    [.call "__parse_internal" [.rep "t" none]]⟩]

/-- `__parse_internal_or!`, src/macros.rs:438. -/
def parseInternalOr : List Arm := [
  /- 439 -/
  ⟨[.var "input" .expr, .tok .comma, .var "lhs" .expr, .tok .comma, .var "rhs" .expr],
    [.tok (.other "$crate"), .tok (.other "::"), .tok (.ident "combinators"), .tok (.other "::"), .tok (.ident "or"),
      .group .paren [.var "input", .tok .comma, .var "lhs", .tok .comma, .var "rhs"]]⟩]

/-- `__parse_internal!`, src/macros.rs:447. -/
def parseInternal : List Arm := [
  /- 453 -/
  ⟨[.tok .at, .tok (.ident "BIND"), .group .paren [.group .paren [.var "input" .expr, .tok .semi, .tok (.other "_")],
    .rep "exp" .tt none true]],
    [.call "__parse_internal" [.tok .at, .tok (.ident "EXPR"), .group .paren [.var "input", .tok .semi], .rep "exp"
      none]]⟩,
  /- 454 -/
  ⟨[.tok .at, .tok (.ident "BIND"), .group .paren [.group .paren [.var "input" .expr, .tok .semi, .tok (.other "_")],
    .rep "exp" .tt none true], .rep "tail" .tt none true],
    [.call "__parse_internal" [.tok .at, .tok (.ident "EXPR"), .group .paren [.var "input", .tok .semi], .rep "exp"
      none], .tok (.other "."), .tok (.ident "bind"), .group .paren [.tok .bar, .tok (.ident "i"), .tok .comma, .tok
      (.other "_"), .tok .bar, .call "__parse_internal" [.tok (.ident "i"), .tok .semi, .rep "tail" none]]]⟩,
  /- 455 -/
  ⟨[.tok .at, .tok (.ident "BIND"), .group .paren [.group .paren [.var "input" .expr, .tok .semi, .var "name" .pat],
    .rep "exp" .tt none true], .rep "tail" .tt none true],
    [.call "__parse_internal" [.tok .at, .tok (.ident "EXPR"), .group .paren [.var "input", .tok .semi], .rep "exp"
      none], .tok (.other "."), .tok (.ident "bind"), .group .paren [.tok .bar, .tok (.ident "i"), .tok .comma, .var
      "name", .tok .bar, .call "__parse_internal" [.tok (.ident "i"), .tok .semi, .rep "tail" none]]]⟩,
  /- 456 -/
  ⟨[.tok .at, .tok (.ident "BIND"), .group .paren [.group .paren [.var "input" .expr, .tok .semi, .var "name" .ident,
    .tok .colon, .var "name_ty" .ty], .rep "exp" .tt none true], .rep "tail" .tt none true],
    [.call "__parse_internal" [.tok .at, .tok (.ident "EXPR"), .group .paren [.var "input", .tok .semi], .rep "exp"
      none], .tok (.other "."), .tok (.ident "bind"), .group .paren [.tok .bar, .tok (.ident "i"), .tok .comma, .var
      "name", .tok .colon, .var "name_ty", .tok .bar, .call "__parse_internal" [.tok (.ident "i"), .tok .semi, .rep
      "tail" none]]]⟩,
  /- 464 -/
  ⟨[.tok .at, .tok (.ident "TERM"), .group .paren [.var "input" .expr], .tok (.ident "ret"), .tok .at, .var "t_ty" .ty,
    .tok .comma, .var "e_ty" .ty, .tok .colon, .var "e" .expr],
    [.var "input", .tok (.other "."), .tok (.ident "ret"), .tok (.other "::"), .tok .lt, .var "t_ty", .tok .comma, .var
      "e_ty", .tok .gt, .group .paren [.var "e"]]⟩,
  /- 466 -/
  ⟨[.tok .at, .tok (.ident "TERM"), .group .paren [.var "input" .expr], .tok (.ident "ret"), .var "e" .expr],
    [.var "input", .tok (.other "."), .tok (.ident "ret"), .group .paren [.var "e"]]⟩,
  /- 468 -/
  ⟨[.tok .at, .tok (.ident "TERM"), .group .paren [.var "input" .expr], .tok (.ident "err"), .tok .at, .var "t_ty" .ty,
    .tok .comma, .var "e_ty" .ty, .tok .colon, .var "e" .expr],
    [.var "input", .tok (.other "."), .tok (.ident "err"), .tok (.other "::"), .tok .lt, .var "t_ty", .tok .comma, .var
      "e_ty", .tok .gt, .group .paren [.var "e"]]⟩,
  /- 470 -/
  ⟨[.tok .at, .tok (.ident "TERM"), .group .paren [.var "input" .expr], .tok (.ident "err"), .var "e" .expr],
    [.var "input", .tok (.other "."), .tok (.ident "err"), .group .paren [.var "e"]]⟩,
  /- 472 -/
  ⟨[.tok .at, .tok (.ident "TERM"), .group .paren [.var "input" .expr], .group .paren [.rep "inner" .tt none false]],
    [.call "__parse_internal" [.tok .at, .tok (.ident "EXPR"), .group .paren [.var "input", .tok .semi], .rep "inner"
      none]]⟩,
  /- 474 -/
  ⟨[.tok .at, .tok (.ident "TERM"), .group .paren [.var "input" .expr], .var "state" .ident, .tok .arrow, .var "e"
    .expr],
    [.group .brace [.tok .kwLet, .var "state", .tok .eq, .var "input", .tok .semi, .var "e"]]⟩,
  /- 476 -/
  ⟨[.tok .at, .tok (.ident "TERM"), .group .paren [.var "input" .expr], .var "func" .ident, .group .paren [.rep "param"
    .expr (some .comma) false, .reps .comma]],
    [.var "func", .group .paren [.var "input", .tok .comma, .rep "param" (some .comma)]]⟩,
  /- 480 -/
  ⟨[.tok .at, .tok (.ident "EXPR"), .group .paren [.var "input" .expr, .tok .semi, .rep "lhs" .tt none false]],
    [.call "__parse_internal" [.tok .at, .tok (.ident "EXPR_ALT"), .group .paren [.var "input", .tok .semi], .rep "lhs"
      none]]⟩,
  /- 482 -/
  ⟨[.tok .at, .tok (.ident "EXPR"), .group .paren [.var "input" .expr, .tok .semi, .rep "lhs" .tt none false], .tok
    .shr, .rep "tail" .tt none false],
    [.call "__parse_internal" [.tok .at, .tok (.ident "EXPR_ALT"), .group .paren [.var "input", .tok .semi], .rep "lhs"
      none], .tok (.other "."), .tok (.ident "bind"), .group .paren [.tok .bar, .tok (.ident "i"), .tok .comma, .tok
      (.other "_"), .tok .bar, .call "__parse_internal" [.tok .at, .tok (.ident "EXPR"), .group .paren [.tok (.ident
      "i"), .tok .semi], .rep "tail" none]]]⟩,
  /- 486 -/
  ⟨[.tok .at, .tok (.ident "EXPR"), .group .paren [.var "input" .expr, .tok .semi, .rep "lhs" .tt none false], .var "t1"
    .tt],
    [.call "__parse_internal" [.tok .at, .tok (.ident "EXPR_ALT"), .group .paren [.var "input", .tok .semi], .rep "lhs"
      none, .var "t1"]]⟩,
  /- 487 -/
  ⟨[.tok .at, .tok (.ident "EXPR"), .group .paren [.var "input" .expr, .tok .semi, .rep "lhs" .tt none false], .var "t1"
    .tt, .tok .shr, .rep "tail" .tt none false],
    [.call "__parse_internal" [.tok .at, .tok (.ident "EXPR_ALT"), .group .paren [.var "input", .tok .semi], .rep "lhs"
      none, .var "t1"], .tok (.other "."), .tok (.ident "bind"), .group .paren [.tok .bar, .tok (.ident "i"), .tok
      .comma, .tok (.other "_"), .tok .bar, .call "__parse_internal" [.tok .at, .tok (.ident "EXPR"), .group .paren
      [.tok (.ident "i"), .tok .semi], .rep "tail" none]]]⟩,
  /- 488 -/
  ⟨[.tok .at, .tok (.ident "EXPR"), .group .paren [.var "input" .expr, .tok .semi, .rep "lhs" .tt none false], .var "t1"
    .tt, .var "t2" .tt],
    [.call "__parse_internal" [.tok .at, .tok (.ident "EXPR_ALT"), .group .paren [.var "input", .tok .semi], .rep "lhs"
      none, .var "t1", .var "t2"]]⟩,
  /- 489 -/
  ⟨[.tok .at, .tok (.ident "EXPR"), .group .paren [.var "input" .expr, .tok .semi, .rep "lhs" .tt none false], .var "t1"
    .tt, .var "t2" .tt, .tok .shr, .rep "tail" .tt none false],
    [.call "__parse_internal" [.tok .at, .tok (.ident "EXPR_ALT"), .group .paren [.var "input", .tok .semi], .rep "lhs"
      none, .var "t1", .var "t2"], .tok (.other "."), .tok (.ident "bind"), .group .paren [.tok .bar, .tok (.ident "i"),
      .tok .comma, .tok (.other "_"), .tok .bar, .call "__parse_internal" [.tok .at, .tok (.ident "EXPR"), .group .paren
      [.tok (.ident "i"), .tok .semi], .rep "tail" none]]]⟩,
  /- 490 -/
  ⟨[.tok .at, .tok (.ident "EXPR"), .group .paren [.var "input" .expr, .tok .semi, .rep "lhs" .tt none false], .var "t1"
    .tt, .var "t2" .tt, .var "t3" .tt],
    [.call "__parse_internal" [.tok .at, .tok (.ident "EXPR_ALT"), .group .paren [.var "input", .tok .semi], .rep "lhs"
      none, .var "t1", .var "t2", .var "t3"]]⟩,
  /- 491 -/
  ⟨[.tok .at, .tok (.ident "EXPR"), .group .paren [.var "input" .expr, .tok .semi, .rep "lhs" .tt none false], .var "t1"
    .tt, .var "t2" .tt, .var "t3" .tt, .tok .shr, .rep "tail" .tt none false],
    [.call "__parse_internal" [.tok .at, .tok (.ident "EXPR_ALT"), .group .paren [.var "input", .tok .semi], .rep "lhs"
      none, .var "t1", .var "t2", .var "t3"], .tok (.other "."), .tok (.ident "bind"), .group .paren [.tok .bar, .tok
      (.ident "i"), .tok .comma, .tok (.other "_"), .tok .bar, .call "__parse_internal" [.tok .at, .tok (.ident "EXPR"),
      .group .paren [.tok (.ident "i"), .tok .semi], .rep "tail" none]]]⟩,
  /- 492 -/
  ⟨[.tok .at, .tok (.ident "EXPR"), .group .paren [.var "input" .expr, .tok .semi, .rep "lhs" .tt none false], .var "t1"
    .tt, .var "t2" .tt, .var "t3" .tt, .var "t4" .tt],
    [.call "__parse_internal" [.tok .at, .tok (.ident "EXPR_ALT"), .group .paren [.var "input", .tok .semi], .rep "lhs"
      none, .var "t1", .var "t2", .var "t3", .var "t4"]]⟩,
  /- 493 -/
  ⟨[.tok .at, .tok (.ident "EXPR"), .group .paren [.var "input" .expr, .tok .semi, .rep "lhs" .tt none false], .var "t1"
    .tt, .var "t2" .tt, .var "t3" .tt, .var "t4" .tt, .tok .shr, .rep "tail" .tt none false],
    [.call "__parse_internal" [.tok .at, .tok (.ident "EXPR_ALT"), .group .paren [.var "input", .tok .semi], .rep "lhs"
      none, .var "t1", .var "t2", .var "t3", .var "t4"], .tok (.other "."), .tok (.ident "bind"), .group .paren [.tok
      .bar, .tok (.ident "i"), .tok .comma, .tok (.other "_"), .tok .bar, .call "__parse_internal" [.tok .at, .tok
      (.ident "EXPR"), .group .paren [.tok (.ident "i"), .tok .semi], .rep "tail" none]]]⟩,
  /- 494 -/
  ⟨[.tok .at, .tok (.ident "EXPR"), .group .paren [.var "input" .expr, .tok .semi, .rep "lhs" .tt none false], .var "t1"
    .tt, .var "t2" .tt, .var "t3" .tt, .var "t4" .tt, .var "t5" .tt],
    [.call "__parse_internal" [.tok .at, .tok (.ident "EXPR_ALT"), .group .paren [.var "input", .tok .semi], .rep "lhs"
      none, .var "t1", .var "t2", .var "t3", .var "t4", .var "t5"]]⟩,
  /- 495 -/
  ⟨[.tok .at, .tok (.ident "EXPR"), .group .paren [.var "input" .expr, .tok .semi, .rep "lhs" .tt none false], .var "t1"
    .tt, .var "t2" .tt, .var "t3" .tt, .var "t4" .tt, .var "t5" .tt, .tok .shr, .rep "tail" .tt none false],
    [.call "__parse_internal" [.tok .at, .tok (.ident "EXPR_ALT"), .group .paren [.var "input", .tok .semi], .rep "lhs"
      none, .var "t1", .var "t2", .var "t3", .var "t4", .var "t5"], .tok (.other "."), .tok (.ident "bind"), .group
      .paren [.tok .bar, .tok (.ident "i"), .tok .comma, .tok (.other "_"), .tok .bar, .call "__parse_internal" [.tok
      .at, .tok (.ident "EXPR"), .group .paren [.tok (.ident "i"), .tok .semi], .rep "tail" none]]]⟩,
  /- 496 -/
  ⟨[.tok .at, .tok (.ident "EXPR"), .group .paren [.var "input" .expr, .tok .semi, .rep "lhs" .tt none false], .var "t1"
    .tt, .var "t2" .tt, .var "t3" .tt, .var "t4" .tt, .var "t5" .tt, .var "t6" .tt],
    [.call "__parse_internal" [.tok .at, .tok (.ident "EXPR_ALT"), .group .paren [.var "input", .tok .semi], .rep "lhs"
      none, .var "t1", .var "t2", .var "t3", .var "t4", .var "t5", .var "t6"]]⟩,
  /- 497 -/
  ⟨[.tok .at, .tok (.ident "EXPR"), .group .paren [.var "input" .expr, .tok .semi, .rep "lhs" .tt none false], .var "t1"
    .tt, .var "t2" .tt, .var "t3" .tt, .var "t4" .tt, .var "t5" .tt, .var "t6" .tt, .tok .shr, .rep "tail" .tt none
    false],
    [.call "__parse_internal" [.tok .at, .tok (.ident "EXPR_ALT"), .group .paren [.var "input", .tok .semi], .rep "lhs"
      none, .var "t1", .var "t2", .var "t3", .var "t4", .var "t5", .var "t6"], .tok (.other "."), .tok (.ident "bind"),
      .group .paren [.tok .bar, .tok (.ident "i"), .tok .comma, .tok (.other "_"), .tok .bar, .call "__parse_internal"
      [.tok .at, .tok (.ident "EXPR"), .group .paren [.tok (.ident "i"), .tok .semi], .rep "tail" none]]]⟩,
  /- 498 -/
  ⟨[.tok .at, .tok (.ident "EXPR"), .group .paren [.var "input" .expr, .tok .semi, .rep "lhs" .tt none false], .var "t1"
    .tt, .var "t2" .tt, .var "t3" .tt, .var "t4" .tt, .var "t5" .tt, .var "t6" .tt, .var "t7" .tt],
    [.call "__parse_internal" [.tok .at, .tok (.ident "EXPR_ALT"), .group .paren [.var "input", .tok .semi], .rep "lhs"
      none, .var "t1", .var "t2", .var "t3", .var "t4", .var "t5", .var "t6", .var "t7"]]⟩,
  /- 499 -/
  ⟨[.tok .at, .tok (.ident "EXPR"), .group .paren [.var "input" .expr, .tok .semi, .rep "lhs" .tt none false], .var "t1"
    .tt, .var "t2" .tt, .var "t3" .tt, .var "t4" .tt, .var "t5" .tt, .var "t6" .tt, .var "t7" .tt, .tok .shr, .rep
    "tail" .tt none false],
    [.call "__parse_internal" [.tok .at, .tok (.ident "EXPR_ALT"), .group .paren [.var "input", .tok .semi], .rep "lhs"
      none, .var "t1", .var "t2", .var "t3", .var "t4", .var "t5", .var "t6", .var "t7"], .tok (.other "."), .tok
      (.ident "bind"), .group .paren [.tok .bar, .tok (.ident "i"), .tok .comma, .tok (.other "_"), .tok .bar, .call
      "__parse_internal" [.tok .at, .tok (.ident "EXPR"), .group .paren [.tok (.ident "i"), .tok .semi], .rep "tail"
      none]]]⟩,
  /- 500 -/
  ⟨[.tok .at, .tok (.ident "EXPR"), .group .paren [.var "input" .expr, .tok .semi, .rep "lhs" .tt none false], .var "t1"
    .tt, .var "t2" .tt, .var "t3" .tt, .var "t4" .tt, .var "t5" .tt, .var "t6" .tt, .var "t7" .tt, .var "t8" .tt, .rep
    "tail" .tt none false],
    [.call "__parse_internal" [.tok .at, .tok (.ident "EXPR"), .group .paren [.var "input", .tok .semi, .rep "lhs" none,
      .var "t1", .var "t2", .var "t3", .var "t4", .var "t5", .var "t6", .var "t7", .var "t8"], .rep "tail" none]]⟩,
  /- 503 -/
  ⟨[.tok .at, .tok (.ident "EXPR_ALT"), .group .paren [.var "input" .expr, .tok .semi, .rep "lhs" .tt none false]],
    [.call "__parse_internal" [.tok .at, .tok (.ident "EXPR_SKIP"), .group .paren [.var "input", .tok .semi], .rep "lhs"
      none]]⟩,
  /- 505 -/
  ⟨[.tok .at, .tok (.ident "EXPR_ALT"), .group .paren [.var "input" .expr, .tok .semi, .rep "lhs" .tt none false], .tok
    .lt, .tok .bar, .tok .gt, .rep "tail" .tt none false],
    [.call "__parse_internal_or" [.var "input", .tok .comma, .tok .bar, .tok (.ident "i"), .tok .bar, .call
      "__parse_internal" [.tok .at, .tok (.ident "EXPR_SKIP"), .group .paren [.tok (.ident "i"), .tok .semi], .rep "lhs"
      none], .tok .comma, .tok .bar, .tok (.ident "i"), .tok .bar, .call "__parse_internal" [.tok .at, .tok (.ident
      "EXPR_ALT"), .group .paren [.tok (.ident "i"), .tok .semi], .rep "tail" none]]]⟩,
  /- 509 -/
  ⟨[.tok .at, .tok (.ident "EXPR_ALT"), .group .paren [.var "input" .expr, .tok .semi, .rep "lhs" .tt none false], .var
    "t1" .tt],
    [.call "__parse_internal" [.tok .at, .tok (.ident "EXPR_SKIP"), .group .paren [.var "input", .tok .semi], .rep "lhs"
      none, .var "t1"]]⟩,
  /- 510 -/
  ⟨[.tok .at, .tok (.ident "EXPR_ALT"), .group .paren [.var "input" .expr, .tok .semi, .rep "lhs" .tt none false], .var
    "t1" .tt, .tok .lt, .tok .bar, .tok .gt, .rep "tail" .tt none false],
    [.call "__parse_internal_or" [.var "input", .tok .comma, .tok .bar, .tok (.ident "i"), .tok .bar, .call
      "__parse_internal" [.tok .at, .tok (.ident "EXPR_SKIP"), .group .paren [.tok (.ident "i"), .tok .semi], .rep "lhs"
      none, .var "t1"], .tok .comma, .tok .bar, .tok (.ident "i"), .tok .bar, .call "__parse_internal" [.tok .at, .tok
      (.ident "EXPR_ALT"), .group .paren [.tok (.ident "i"), .tok .semi], .rep "tail" none]]]⟩,
  /- 511 -/
  ⟨[.tok .at, .tok (.ident "EXPR_ALT"), .group .paren [.var "input" .expr, .tok .semi, .rep "lhs" .tt none false], .var
    "t1" .tt, .var "t2" .tt],
    [.call "__parse_internal" [.tok .at, .tok (.ident "EXPR_SKIP"), .group .paren [.var "input", .tok .semi], .rep "lhs"
      none, .var "t1", .var "t2"]]⟩,
  /- 512 -/
  ⟨[.tok .at, .tok (.ident "EXPR_ALT"), .group .paren [.var "input" .expr, .tok .semi, .rep "lhs" .tt none false], .var
    "t1" .tt, .var "t2" .tt, .tok .lt, .tok .bar, .tok .gt, .rep "tail" .tt none false],
    [.call "__parse_internal_or" [.var "input", .tok .comma, .tok .bar, .tok (.ident "i"), .tok .bar, .call
      "__parse_internal" [.tok .at, .tok (.ident "EXPR_SKIP"), .group .paren [.tok (.ident "i"), .tok .semi], .rep "lhs"
      none, .var "t1", .var "t2"], .tok .comma, .tok .bar, .tok (.ident "i"), .tok .bar, .call "__parse_internal" [.tok
      .at, .tok (.ident "EXPR_ALT"), .group .paren [.tok (.ident "i"), .tok .semi], .rep "tail" none]]]⟩,
  /- 513 -/
  ⟨[.tok .at, .tok (.ident "EXPR_ALT"), .group .paren [.var "input" .expr, .tok .semi, .rep "lhs" .tt none false], .var
    "t1" .tt, .var "t2" .tt, .var "t3" .tt],
    [.call "__parse_internal" [.tok .at, .tok (.ident "EXPR_SKIP"), .group .paren [.var "input", .tok .semi], .rep "lhs"
      none, .var "t1", .var "t2", .var "t3"]]⟩,
  /- 514 -/
  ⟨[.tok .at, .tok (.ident "EXPR_ALT"), .group .paren [.var "input" .expr, .tok .semi, .rep "lhs" .tt none false], .var
    "t1" .tt, .var "t2" .tt, .var "t3" .tt, .tok .lt, .tok .bar, .tok .gt, .rep "tail" .tt none false],
    [.call "__parse_internal_or" [.var "input", .tok .comma, .tok .bar, .tok (.ident "i"), .tok .bar, .call
      "__parse_internal" [.tok .at, .tok (.ident "EXPR_SKIP"), .group .paren [.tok (.ident "i"), .tok .semi], .rep "lhs"
      none, .var "t1", .var "t2", .var "t3"], .tok .comma, .tok .bar, .tok (.ident "i"), .tok .bar, .call
      "__parse_internal" [.tok .at, .tok (.ident "EXPR_ALT"), .group .paren [.tok (.ident "i"), .tok .semi], .rep "tail"
      none]]]⟩,
  /- 515 -/
  ⟨[.tok .at, .tok (.ident "EXPR_ALT"), .group .paren [.var "input" .expr, .tok .semi, .rep "lhs" .tt none false], .var
    "t1" .tt, .var "t2" .tt, .var "t3" .tt, .var "t4" .tt],
    [.call "__parse_internal" [.tok .at, .tok (.ident "EXPR_SKIP"), .group .paren [.var "input", .tok .semi], .rep "lhs"
      none, .var "t1", .var "t2", .var "t3", .var "t4"]]⟩,
  /- 516 -/
  ⟨[.tok .at, .tok (.ident "EXPR_ALT"), .group .paren [.var "input" .expr, .tok .semi, .rep "lhs" .tt none false], .var
    "t1" .tt, .var "t2" .tt, .var "t3" .tt, .var "t4" .tt, .tok .lt, .tok .bar, .tok .gt, .rep "tail" .tt none false],
    [.call "__parse_internal_or" [.var "input", .tok .comma, .tok .bar, .tok (.ident "i"), .tok .bar, .call
      "__parse_internal" [.tok .at, .tok (.ident "EXPR_SKIP"), .group .paren [.tok (.ident "i"), .tok .semi], .rep "lhs"
      none, .var "t1", .var "t2", .var "t3", .var "t4"], .tok .comma, .tok .bar, .tok (.ident "i"), .tok .bar, .call
      "__parse_internal" [.tok .at, .tok (.ident "EXPR_ALT"), .group .paren [.tok (.ident "i"), .tok .semi], .rep "tail"
      none]]]⟩,
  /- 517 -/
  ⟨[.tok .at, .tok (.ident "EXPR_ALT"), .group .paren [.var "input" .expr, .tok .semi, .rep "lhs" .tt none false], .var
    "t1" .tt, .var "t2" .tt, .var "t3" .tt, .var "t4" .tt, .var "t5" .tt],
    [.call "__parse_internal" [.tok .at, .tok (.ident "EXPR_SKIP"), .group .paren [.var "input", .tok .semi], .rep "lhs"
      none, .var "t1", .var "t2", .var "t3", .var "t4", .var "t5"]]⟩,
  /- 518 -/
  ⟨[.tok .at, .tok (.ident "EXPR_ALT"), .group .paren [.var "input" .expr, .tok .semi, .rep "lhs" .tt none false], .var
    "t1" .tt, .var "t2" .tt, .var "t3" .tt, .var "t4" .tt, .var "t5" .tt, .tok .lt, .tok .bar, .tok .gt, .rep "tail" .tt
    none false],
    [.call "__parse_internal_or" [.var "input", .tok .comma, .tok .bar, .tok (.ident "i"), .tok .bar, .call
      "__parse_internal" [.tok .at, .tok (.ident "EXPR_SKIP"), .group .paren [.tok (.ident "i"), .tok .semi], .rep "lhs"
      none, .var "t1", .var "t2", .var "t3", .var "t4", .var "t5"], .tok .comma, .tok .bar, .tok (.ident "i"), .tok
      .bar, .call "__parse_internal" [.tok .at, .tok (.ident "EXPR_ALT"), .group .paren [.tok (.ident "i"), .tok .semi],
      .rep "tail" none]]]⟩,
  /- 519 -/
  ⟨[.tok .at, .tok (.ident "EXPR_ALT"), .group .paren [.var "input" .expr, .tok .semi, .rep "lhs" .tt none false], .var
    "t1" .tt, .var "t2" .tt, .var "t3" .tt, .var "t4" .tt, .var "t5" .tt, .var "t6" .tt],
    [.call "__parse_internal" [.tok .at, .tok (.ident "EXPR_SKIP"), .group .paren [.var "input", .tok .semi], .rep "lhs"
      none, .var "t1", .var "t2", .var "t3", .var "t4", .var "t5", .var "t6"]]⟩,
  /- 520 -/
  ⟨[.tok .at, .tok (.ident "EXPR_ALT"), .group .paren [.var "input" .expr, .tok .semi, .rep "lhs" .tt none false], .var
    "t1" .tt, .var "t2" .tt, .var "t3" .tt, .var "t4" .tt, .var "t5" .tt, .var "t6" .tt, .tok .lt, .tok .bar, .tok .gt,
    .rep "tail" .tt none false],
    [.call "__parse_internal_or" [.var "input", .tok .comma, .tok .bar, .tok (.ident "i"), .tok .bar, .call
      "__parse_internal" [.tok .at, .tok (.ident "EXPR_SKIP"), .group .paren [.tok (.ident "i"), .tok .semi], .rep "lhs"
      none, .var "t1", .var "t2", .var "t3", .var "t4", .var "t5", .var "t6"], .tok .comma, .tok .bar, .tok (.ident
      "i"), .tok .bar, .call "__parse_internal" [.tok .at, .tok (.ident "EXPR_ALT"), .group .paren [.tok (.ident "i"),
      .tok .semi], .rep "tail" none]]]⟩,
  /- 521 -/
  ⟨[.tok .at, .tok (.ident "EXPR_ALT"), .group .paren [.var "input" .expr, .tok .semi, .rep "lhs" .tt none false], .var
    "t1" .tt, .var "t2" .tt, .var "t3" .tt, .var "t4" .tt, .var "t5" .tt, .var "t6" .tt, .var "t7" .tt],
    [.call "__parse_internal" [.tok .at, .tok (.ident "EXPR_SKIP"), .group .paren [.var "input", .tok .semi], .rep "lhs"
      none, .var "t1", .var "t2", .var "t3", .var "t4", .var "t5", .var "t6", .var "t7"]]⟩,
  /- 522 -/
  ⟨[.tok .at, .tok (.ident "EXPR_ALT"), .group .paren [.var "input" .expr, .tok .semi, .rep "lhs" .tt none false], .var
    "t1" .tt, .var "t2" .tt, .var "t3" .tt, .var "t4" .tt, .var "t5" .tt, .var "t6" .tt, .var "t7" .tt, .tok .lt, .tok
    .bar, .tok .gt, .rep "tail" .tt none false],
    [.call "__parse_internal_or" [.var "input", .tok .comma, .tok .bar, .tok (.ident "i"), .tok .bar, .call
      "__parse_internal" [.tok .at, .tok (.ident "EXPR_SKIP"), .group .paren [.tok (.ident "i"), .tok .semi], .rep "lhs"
      none, .var "t1", .var "t2", .var "t3", .var "t4", .var "t5", .var "t6", .var "t7"], .tok .comma, .tok .bar, .tok
      (.ident "i"), .tok .bar, .call "__parse_internal" [.tok .at, .tok (.ident "EXPR_ALT"), .group .paren [.tok (.ident
      "i"), .tok .semi], .rep "tail" none]]]⟩,
  /- 523 -/
  ⟨[.tok .at, .tok (.ident "EXPR_ALT"), .group .paren [.var "input" .expr, .tok .semi, .rep "lhs" .tt none false], .var
    "t1" .tt, .var "t2" .tt, .var "t3" .tt, .var "t4" .tt, .var "t5" .tt, .var "t6" .tt, .var "t7" .tt, .var "t8" .tt,
    .rep "tail" .tt none false],
    [.call "__parse_internal" [.tok .at, .tok (.ident "EXPR_ALT"), .group .paren [.var "input", .tok .semi, .rep "lhs"
      none, .var "t1", .var "t2", .var "t3", .var "t4", .var "t5", .var "t6", .var "t7", .var "t8"], .rep "tail"
      none]]⟩,
  /- 526 -/
  ⟨[.tok .at, .tok (.ident "EXPR_SKIP"), .group .paren [.var "input" .expr, .tok .semi, .rep "lhs" .tt none false]],
    [.call "__parse_internal" [.tok .at, .tok (.ident "TERM"), .group .paren [.var "input"], .rep "lhs" none]]⟩,
  /- 528 -/
  ⟨[.tok .at, .tok (.ident "EXPR_SKIP"), .group .paren [.var "input" .expr, .tok .semi, .rep "lhs" .tt none false], .tok
    .lt, .tok .star, .rep "tail" .tt none false],
    [.call "__parse_internal" [.tok .at, .tok (.ident "TERM"), .group .paren [.var "input"], .rep "lhs" none], .tok
      (.other "."), .tok (.ident "bind"), .group .paren [.tok .bar, .tok (.ident "i"), .tok .comma, .tok (.ident "l"),
      .tok .bar, .call "__parse_internal" [.tok .at, .tok (.ident "EXPR_SKIP"), .group .paren [.tok (.ident "i"), .tok
      .semi], .rep "tail" none], .tok (.other "."), .tok (.ident "map"), .group .paren [.tok .bar, .tok (.other "_"),
      .tok .bar, .tok (.ident "l")]]]⟩,
  /- 532 -/
  ⟨[.tok .at, .tok (.ident "EXPR_SKIP"), .group .paren [.var "input" .expr, .tok .semi, .rep "lhs" .tt none false], .var
    "t1" .tt],
    [.call "__parse_internal" [.tok .at, .tok (.ident "TERM"), .group .paren [.var "input"], .rep "lhs" none, .var
      "t1"]]⟩,
  /- 533 -/
  ⟨[.tok .at, .tok (.ident "EXPR_SKIP"), .group .paren [.var "input" .expr, .tok .semi, .rep "lhs" .tt none false], .var
    "t1" .tt, .tok .lt, .tok .star, .rep "tail" .tt none false],
    [.call "__parse_internal" [.tok .at, .tok (.ident "TERM"), .group .paren [.var "input"], .rep "lhs" none, .var
      "t1"], .tok (.other "."), .tok (.ident "bind"), .group .paren [.tok .bar, .tok (.ident "i"), .tok .comma, .tok
      (.ident "l"), .tok .bar, .call "__parse_internal" [.tok .at, .tok (.ident "EXPR_SKIP"), .group .paren [.tok
      (.ident "i"), .tok .semi], .rep "tail" none], .tok (.other "."), .tok (.ident "map"), .group .paren [.tok .bar,
      .tok (.other "_"), .tok .bar, .tok (.ident "l")]]]⟩,
  /- 534 -/
  ⟨[.tok .at, .tok (.ident "EXPR_SKIP"), .group .paren [.var "input" .expr, .tok .semi, .rep "lhs" .tt none false], .var
    "t1" .tt, .var "t2" .tt],
    [.call "__parse_internal" [.tok .at, .tok (.ident "TERM"), .group .paren [.var "input"], .rep "lhs" none, .var "t1",
      .var "t2"]]⟩,
  /- 535 -/
  ⟨[.tok .at, .tok (.ident "EXPR_SKIP"), .group .paren [.var "input" .expr, .tok .semi, .rep "lhs" .tt none false], .var
    "t1" .tt, .var "t2" .tt, .tok .lt, .tok .star, .rep "tail" .tt none false],
    [.call "__parse_internal" [.tok .at, .tok (.ident "TERM"), .group .paren [.var "input"], .rep "lhs" none, .var "t1",
      .var "t2"], .tok (.other "."), .tok (.ident "bind"), .group .paren [.tok .bar, .tok (.ident "i"), .tok .comma,
      .tok (.ident "l"), .tok .bar, .call "__parse_internal" [.tok .at, .tok (.ident "EXPR_SKIP"), .group .paren [.tok
      (.ident "i"), .tok .semi], .rep "tail" none], .tok (.other "."), .tok (.ident "map"), .group .paren [.tok .bar,
      .tok (.other "_"), .tok .bar, .tok (.ident "l")]]]⟩,
  /- 536 -/
  ⟨[.tok .at, .tok (.ident "EXPR_SKIP"), .group .paren [.var "input" .expr, .tok .semi, .rep "lhs" .tt none false], .var
    "t1" .tt, .var "t2" .tt, .var "t3" .tt],
    [.call "__parse_internal" [.tok .at, .tok (.ident "TERM"), .group .paren [.var "input"], .rep "lhs" none, .var "t1",
      .var "t2", .var "t3"]]⟩,
  /- 537 -/
  ⟨[.tok .at, .tok (.ident "EXPR_SKIP"), .group .paren [.var "input" .expr, .tok .semi, .rep "lhs" .tt none false], .var
    "t1" .tt, .var "t2" .tt, .var "t3" .tt, .tok .lt, .tok .star, .rep "tail" .tt none false],
    [.call "__parse_internal" [.tok .at, .tok (.ident "TERM"), .group .paren [.var "input"], .rep "lhs" none, .var "t1",
      .var "t2", .var "t3"], .tok (.other "."), .tok (.ident "bind"), .group .paren [.tok .bar, .tok (.ident "i"), .tok
      .comma, .tok (.ident "l"), .tok .bar, .call "__parse_internal" [.tok .at, .tok (.ident "EXPR_SKIP"), .group .paren
      [.tok (.ident "i"), .tok .semi], .rep "tail" none], .tok (.other "."), .tok (.ident "map"), .group .paren [.tok
      .bar, .tok (.other "_"), .tok .bar, .tok (.ident "l")]]]⟩,
  /- 538 -/
  ⟨[.tok .at, .tok (.ident "EXPR_SKIP"), .group .paren [.var "input" .expr, .tok .semi, .rep "lhs" .tt none false], .var
    "t1" .tt, .var "t2" .tt, .var "t3" .tt, .var "t4" .tt],
    [.call "__parse_internal" [.tok .at, .tok (.ident "TERM"), .group .paren [.var "input"], .rep "lhs" none, .var "t1",
      .var "t2", .var "t3", .var "t4"]]⟩,
  /- 539 -/
  ⟨[.tok .at, .tok (.ident "EXPR_SKIP"), .group .paren [.var "input" .expr, .tok .semi, .rep "lhs" .tt none false], .var
    "t1" .tt, .var "t2" .tt, .var "t3" .tt, .var "t4" .tt, .tok .lt, .tok .star, .rep "tail" .tt none false],
    [.call "__parse_internal" [.tok .at, .tok (.ident "TERM"), .group .paren [.var "input"], .rep "lhs" none, .var "t1",
      .var "t2", .var "t3", .var "t4"], .tok (.other "."), .tok (.ident "bind"), .group .paren [.tok .bar, .tok (.ident
      "i"), .tok .comma, .tok (.ident "l"), .tok .bar, .call "__parse_internal" [.tok .at, .tok (.ident "EXPR_SKIP"),
      .group .paren [.tok (.ident "i"), .tok .semi], .rep "tail" none], .tok (.other "."), .tok (.ident "map"), .group
      .paren [.tok .bar, .tok (.other "_"), .tok .bar, .tok (.ident "l")]]]⟩,
  /- 540 -/
  ⟨[.tok .at, .tok (.ident "EXPR_SKIP"), .group .paren [.var "input" .expr, .tok .semi, .rep "lhs" .tt none false], .var
    "t1" .tt, .var "t2" .tt, .var "t3" .tt, .var "t4" .tt, .var "t5" .tt, .rep "tail" .tt none false],
    [.call "__parse_internal" [.tok .at, .tok (.ident "EXPR_SKIP"), .group .paren [.var "input", .tok .semi, .rep "lhs"
      none, .var "t1", .var "t2", .var "t3", .var "t4", .var "t5"], .rep "tail" none]]⟩,
  /- 543 -/
  ⟨[.tok .at, .tok (.ident "STATEMENT"), .group .paren [.var "args" .tt, .rep "data" .tt none false]],
    [.call "__parse_internal" [.tok .at, .tok (.ident "BIND"), .group .paren [.var "args", .rep "data" none]]]⟩,
  /- 544 -/
  ⟨[.tok .at, .tok (.ident "STATEMENT"), .group .paren [.var "args" .tt, .rep "data" .tt none false], .tok .semi, .rep
    "tail" .tt none false],
    [.call "__parse_internal" [.tok .at, .tok (.ident "BIND"), .group .paren [.var "args", .rep "data" none], .rep
      "tail" none]]⟩,
  /- 549 -/
  ⟨[.tok .at, .tok (.ident "STATEMENT"), .group .paren [.var "args" .tt, .rep "data" .tt none false], .var "t1" .tt],
    [.call "__parse_internal" [.tok .at, .tok (.ident "BIND"), .group .paren [.var "args", .rep "data" none, .var
      "t1"]]]⟩,
  /- 550 -/
  ⟨[.tok .at, .tok (.ident "STATEMENT"), .group .paren [.var "args" .tt, .rep "data" .tt none false], .var "t1" .tt,
    .tok .semi, .rep "tail" .tt none false],
    [.call "__parse_internal" [.tok .at, .tok (.ident "BIND"), .group .paren [.var "args", .rep "data" none, .var "t1"],
      .rep "tail" none]]⟩,
  /- 551 -/
  ⟨[.tok .at, .tok (.ident "STATEMENT"), .group .paren [.var "args" .tt, .rep "data" .tt none false], .var "t1" .tt,
    .var "t2" .tt],
    [.call "__parse_internal" [.tok .at, .tok (.ident "BIND"), .group .paren [.var "args", .rep "data" none, .var "t1",
      .var "t2"]]]⟩,
  /- 552 -/
  ⟨[.tok .at, .tok (.ident "STATEMENT"), .group .paren [.var "args" .tt, .rep "data" .tt none false], .var "t1" .tt,
    .var "t2" .tt, .tok .semi, .rep "tail" .tt none false],
    [.call "__parse_internal" [.tok .at, .tok (.ident "BIND"), .group .paren [.var "args", .rep "data" none, .var "t1",
      .var "t2"], .rep "tail" none]]⟩,
  /- 553 -/
  ⟨[.tok .at, .tok (.ident "STATEMENT"), .group .paren [.var "args" .tt, .rep "data" .tt none false], .var "t1" .tt,
    .var "t2" .tt, .var "t3" .tt],
    [.call "__parse_internal" [.tok .at, .tok (.ident "BIND"), .group .paren [.var "args", .rep "data" none, .var "t1",
      .var "t2", .var "t3"]]]⟩,
  /- 554 -/
  ⟨[.tok .at, .tok (.ident "STATEMENT"), .group .paren [.var "args" .tt, .rep "data" .tt none false], .var "t1" .tt,
    .var "t2" .tt, .var "t3" .tt, .tok .semi, .rep "tail" .tt none false],
    [.call "__parse_internal" [.tok .at, .tok (.ident "BIND"), .group .paren [.var "args", .rep "data" none, .var "t1",
      .var "t2", .var "t3"], .rep "tail" none]]⟩,
  /- 555 -/
  ⟨[.tok .at, .tok (.ident "STATEMENT"), .group .paren [.var "args" .tt, .rep "data" .tt none false], .var "t1" .tt,
    .var "t2" .tt, .var "t3" .tt, .var "t4" .tt],
    [.call "__parse_internal" [.tok .at, .tok (.ident "BIND"), .group .paren [.var "args", .rep "data" none, .var "t1",
      .var "t2", .var "t3", .var "t4"]]]⟩,
  /- 556 -/
  ⟨[.tok .at, .tok (.ident "STATEMENT"), .group .paren [.var "args" .tt, .rep "data" .tt none false], .var "t1" .tt,
    .var "t2" .tt, .var "t3" .tt, .var "t4" .tt, .tok .semi, .rep "tail" .tt none false],
    [.call "__parse_internal" [.tok .at, .tok (.ident "BIND"), .group .paren [.var "args", .rep "data" none, .var "t1",
      .var "t2", .var "t3", .var "t4"], .rep "tail" none]]⟩,
  /- 557 -/
  ⟨[.tok .at, .tok (.ident "STATEMENT"), .group .paren [.var "args" .tt, .rep "data" .tt none false], .var "t1" .tt,
    .var "t2" .tt, .var "t3" .tt, .var "t4" .tt, .var "t5" .tt],
    [.call "__parse_internal" [.tok .at, .tok (.ident "BIND"), .group .paren [.var "args", .rep "data" none, .var "t1",
      .var "t2", .var "t3", .var "t4", .var "t5"]]]⟩,
  /- 558 -/
  ⟨[.tok .at, .tok (.ident "STATEMENT"), .group .paren [.var "args" .tt, .rep "data" .tt none false], .var "t1" .tt,
    .var "t2" .tt, .var "t3" .tt, .var "t4" .tt, .var "t5" .tt, .tok .semi, .rep "tail" .tt none false],
    [.call "__parse_internal" [.tok .at, .tok (.ident "BIND"), .group .paren [.var "args", .rep "data" none, .var "t1",
      .var "t2", .var "t3", .var "t4", .var "t5"], .rep "tail" none]]⟩,
  /- 559 -/
  ⟨[.tok .at, .tok (.ident "STATEMENT"), .group .paren [.var "args" .tt, .rep "data" .tt none false], .var "t1" .tt,
    .var "t2" .tt, .var "t3" .tt, .var "t4" .tt, .var "t5" .tt, .var "t6" .tt],
    [.call "__parse_internal" [.tok .at, .tok (.ident "BIND"), .group .paren [.var "args", .rep "data" none, .var "t1",
      .var "t2", .var "t3", .var "t4", .var "t5", .var "t6"]]]⟩,
  /- 560 -/
  ⟨[.tok .at, .tok (.ident "STATEMENT"), .group .paren [.var "args" .tt, .rep "data" .tt none false], .var "t1" .tt,
    .var "t2" .tt, .var "t3" .tt, .var "t4" .tt, .var "t5" .tt, .var "t6" .tt, .tok .semi, .rep "tail" .tt none false],
    [.call "__parse_internal" [.tok .at, .tok (.ident "BIND"), .group .paren [.var "args", .rep "data" none, .var "t1",
      .var "t2", .var "t3", .var "t4", .var "t5", .var "t6"], .rep "tail" none]]⟩,
  /- 561 -/
  ⟨[.tok .at, .tok (.ident "STATEMENT"), .group .paren [.var "args" .tt, .rep "data" .tt none false], .var "t1" .tt,
    .var "t2" .tt, .var "t3" .tt, .var "t4" .tt, .var "t5" .tt, .var "t6" .tt, .var "t7" .tt],
    [.call "__parse_internal" [.tok .at, .tok (.ident "BIND"), .group .paren [.var "args", .rep "data" none, .var "t1",
      .var "t2", .var "t3", .var "t4", .var "t5", .var "t6", .var "t7"]]]⟩,
  /- 562 -/
  ⟨[.tok .at, .tok (.ident "STATEMENT"), .group .paren [.var "args" .tt, .rep "data" .tt none false], .var "t1" .tt,
    .var "t2" .tt, .var "t3" .tt, .var "t4" .tt, .var "t5" .tt, .var "t6" .tt, .var "t7" .tt, .tok .semi, .rep "tail"
    .tt none false],
    [.call "__parse_internal" [.tok .at, .tok (.ident "BIND"), .group .paren [.var "args", .rep "data" none, .var "t1",
      .var "t2", .var "t3", .var "t4", .var "t5", .var "t6", .var "t7"], .rep "tail" none]]⟩,
  /- 563 -/
  ⟨[.tok .at, .tok (.ident "STATEMENT"), .group .paren [.var "args" .tt, .rep "data" .tt none false], .var "t1" .tt,
    .var "t2" .tt, .var "t3" .tt, .var "t4" .tt, .var "t5" .tt, .var "t6" .tt, .var "t7" .tt, .var "t8" .tt],
    [.call "__parse_internal" [.tok .at, .tok (.ident "BIND"), .group .paren [.var "args", .rep "data" none, .var "t1",
      .var "t2", .var "t3", .var "t4", .var "t5", .var "t6", .var "t7", .var "t8"]]]⟩,
  /- 564 -/
  ⟨[.tok .at, .tok (.ident "STATEMENT"), .group .paren [.var "args" .tt, .rep "data" .tt none false], .var "t1" .tt,
    .var "t2" .tt, .var "t3" .tt, .var "t4" .tt, .var "t5" .tt, .var "t6" .tt, .var "t7" .tt, .var "t8" .tt, .tok .semi,
    .rep "tail" .tt none false],
    [.call "__parse_internal" [.tok .at, .tok (.ident "BIND"), .group .paren [.var "args", .rep "data" none, .var "t1",
      .var "t2", .var "t3", .var "t4", .var "t5", .var "t6", .var "t7", .var "t8"], .rep "tail" none]]⟩,
  /- 565 -/
  ⟨[.tok .at, .tok (.ident "STATEMENT"), .group .paren [.var "args" .tt, .rep "data" .tt none false], .var "t1" .tt,
    .var "t2" .tt, .var "t3" .tt, .var "t4" .tt, .var "t5" .tt, .var "t6" .tt, .var "t7" .tt, .var "t8" .tt, .var "t9"
    .tt],
    [.call "__parse_internal" [.tok .at, .tok (.ident "BIND"), .group .paren [.var "args", .rep "data" none, .var "t1",
      .var "t2", .var "t3", .var "t4", .var "t5", .var "t6", .var "t7", .var "t8", .var "t9"]]]⟩,
  /- 566 -/
  ⟨[.tok .at, .tok (.ident "STATEMENT"), .group .paren [.var "args" .tt, .rep "data" .tt none false], .var "t1" .tt,
    .var "t2" .tt, .var "t3" .tt, .var "t4" .tt, .var "t5" .tt, .var "t6" .tt, .var "t7" .tt, .var "t8" .tt, .var "t9"
    .tt, .tok .semi, .rep "tail" .tt none false],
    [.call "__parse_internal" [.tok .at, .tok (.ident "BIND"), .group .paren [.var "args", .rep "data" none, .var "t1",
      .var "t2", .var "t3", .var "t4", .var "t5", .var "t6", .var "t7", .var "t8", .var "t9"], .rep "tail" none]]⟩,
  /- 567 -/
  ⟨[.tok .at, .tok (.ident "STATEMENT"), .group .paren [.var "args" .tt, .rep "data" .tt none false], .var "t1" .tt,
    .var "t2" .tt, .var "t3" .tt, .var "t4" .tt, .var "t5" .tt, .var "t6" .tt, .var "t7" .tt, .var "t8" .tt, .var "t9"
    .tt, .var "t10" .tt],
    [.call "__parse_internal" [.tok .at, .tok (.ident "BIND"), .group .paren [.var "args", .rep "data" none, .var "t1",
      .var "t2", .var "t3", .var "t4", .var "t5", .var "t6", .var "t7", .var "t8", .var "t9", .var "t10"]]]⟩,
  /- 568 -/
  ⟨[.tok .at, .tok (.ident "STATEMENT"), .group .paren [.var "args" .tt, .rep "data" .tt none false], .var "t1" .tt,
    .var "t2" .tt, .var "t3" .tt, .var "t4" .tt, .var "t5" .tt, .var "t6" .tt, .var "t7" .tt, .var "t8" .tt, .var "t9"
    .tt, .var "t10" .tt, .tok .semi, .rep "tail" .tt none false],
    [.call "__parse_internal" [.tok .at, .tok (.ident "BIND"), .group .paren [.var "args", .rep "data" none, .var "t1",
      .var "t2", .var "t3", .var "t4", .var "t5", .var "t6", .var "t7", .var "t8", .var "t9", .var "t10"], .rep "tail"
      none]]⟩,
  /- 569 -/
  ⟨[.tok .at, .tok (.ident "STATEMENT"), .group .paren [.var "args" .tt, .rep "data" .tt none false], .var "t1" .tt,
    .var "t2" .tt, .var "t3" .tt, .var "t4" .tt, .var "t5" .tt, .var "t6" .tt, .var "t7" .tt, .var "t8" .tt, .var "t9"
    .tt, .var "t10" .tt, .var "t11" .tt, .rep "tail" .tt none false],
    [.call "__parse_internal" [.tok .at, .tok (.ident "STATEMENT"), .group .paren [.var "args", .rep "data" none, .var
      "t1", .var "t2", .var "t3", .var "t4", .var "t5", .var "t6", .var "t7", .var "t8", .var "t9", .var "t10", .var
      "t11"], .rep "tail" none]]⟩,
  /- 576 -/
  ⟨[.var "input" .expr, .tok .semi, .tok .kwLet, .var "name" .pat, .tok .eq, .rep "tail" .tt none true],
    [.call "__parse_internal" [.tok .at, .tok (.ident "STATEMENT"), .group .paren [.group .paren [.var "input", .tok
      .semi, .var "name"]], .rep "tail" none]]⟩,
  /- 578 -/
  ⟨[.var "input" .expr, .tok .semi, .tok .kwLet, .var "name" .ident, .tok .colon, .var "name_ty" .ty, .tok .eq, .rep
    "tail" .tt none true],
    [.call "__parse_internal" [.tok .at, .tok (.ident "STATEMENT"), .group .paren [.group .paren [.var "input", .tok
      .semi, .var "name", .tok .colon, .var "name_ty"]], .rep "tail" none]]⟩,
  /- 580 -/
  ⟨[.var "input" .expr, .tok .semi, .rep "tail" .tt none true],
    [.call "__parse_internal" [.tok .at, .tok (.ident "STATEMENT"), .group .paren [.group .paren [.var "input", .tok
      .semi, .tok (.other "_")]], .rep "tail" none]]⟩,
  /- 584 -/
  ⟨[.var "input" .expr],
    [.var "input"]⟩,
  /- 585 -/
  ⟨[.var "input" .expr, .tok .semi],
    [.var "input"]⟩]

/-- `parser!`, src/macros.rs:601. -/
def parser : List Arm := [
  /- 602 -/
  ⟨[.rep "t" .tt none false],
    [.tok .bar, .tok (.ident "i"), .tok .bar, .call "parse" [.tok (.ident "i"), .tok .semi, .rep "t" none]]⟩]

/-- The macros by name. -/
def find : String → Option (List Arm)
  | "parse" => some parse
  | "__parse_internal_or" => some parseInternalOr
  | "__parse_internal" => some parseInternal
  | "parser" => some parser
  | _ => none

end Chomp.MacroRules.Text
