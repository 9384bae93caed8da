import Verif.Rust.HttpUp
import Verif.Spec.HttpSyntax
import Verif.Model.Programs
import Verif.Props.Http
import Verif.Props.RustBuffers
import Verif.Props.RustMacro

/-
C114: the text of /repo/examples/http_parser.rs, run by the rules of Rust, does what the model says, from the command line to
the line which is printed.

As in Verif/Props/RustText.lean: `run W Text.f args` runs `f` in the world `W`. What is outside of the program and of the
crate is a part of `W`: the arguments, opening and reading files, printing, `i32` and how a number is shown, `Vec`.
`Program W num` says that `u8`, `i32` and `Vec` are those of Rust; `num` are the values of the type `i32`.
-/

namespace Chomp.Props

open Rust hiding bind map
open Chomp.Http (Request Header)
open Spec.Http (RequestText ShortRequest Sequence)

section
variable {σ Y R : Type} [Build] (W : World σ UInt8 Y)

/-! ### The parsers -/

section
variable {num : Int → Y} (hP : Program W num)
include hP

theorem C114_is_token (c : UInt8) :
    run W Text.http_is_token [.item c] = pure (.bool (Http.isToken c)) :=
  run_eq W ((apply_fn W (Text.find_http_is_token _) _).symm.trans (http_is_token W hP.bytes c))

theorem C114_is_horizontal_space (c : UInt8) :
    run W Text.http_is_horizontal_space [.item c] = pure (.bool (Http.isHorizontalSpace c)) :=
  run_eq W ((apply_fn W (Text.find_http_is_horizontal_space _) _).symm.trans (http_is_horizontal_space W hP.bytes c))

theorem C114_is_space (c : UInt8) :
    run W Text.http_is_space [.item c] = pure (.bool (Http.isSpace c)) :=
  run_eq W ((apply_fn W (Text.find_http_is_space _) _).symm.trans (http_is_space W hP.bytes c))

theorem C114_is_not_space (c : UInt8) :
    run W Text.http_is_not_space [.item c] = pure (.bool (Http.isNotSpace c)) :=
  run_eq W ((apply_fn W (Text.find_http_is_not_space _) _).symm.trans (http_is_not_space W hP.bytes hP.ne c))

theorem C114_is_end_of_line (c : UInt8) :
    run W Text.http_is_end_of_line [.item c] = pure (.bool (Http.isEndOfLine c)) :=
  run_eq W ((apply_fn W (Text.find_http_is_end_of_line _) _).symm.trans (http_is_end_of_line W hP.bytes c))

theorem C114_is_http_version (c : UInt8) :
    run W Text.http_is_http_version [.item c] = pure (.bool (Http.isHttpVersion c)) :=
  run_eq W ((apply_fn W (Text.find_http_is_http_version _) _).symm.trans (http_is_http_version W hP.bytes c))

theorem C114_end_of_line (i : Input UInt8) : run W Text.http_end_of_line [ofInput i]
    = (do let r ← Http.endOfLine W.verbose i; pure (ofResult .item ofError r)) :=
  run_eq W ((apply_fn W (Text.find_http_end_of_line _) _).symm.trans (http_end_of_line W hP.bytes i))

theorem C114_http_version (i : Input UInt8) : run W Text.http_http_version [ofInput i]
    = (do let r ← Http.httpVersion W.verbose i; pure (ofResult .slice ofError r)) :=
  run_eq W ((apply_fn W (Text.find_http_http_version _) _).symm.trans (http_http_version W hP.bytes hP.ne i))

theorem C114_request_line (i : Input UInt8) : run W Text.http_request_line [ofInput i]
    = (do let r ← Http.requestLine W.verbose i; pure (ofResult ofRequest ofError r)) :=
  run_eq W ((apply_fn W (Text.find_http_request_line _) _).symm.trans (http_request_line W hP i))

theorem C114_message_header_line (i : Input UInt8) : run W Text.http_message_header_line [ofInput i]
    = (do let r ← Http.messageHeaderLine W.verbose i; pure (ofResult .slice ofError r)) :=
  run_eq W ((apply_fn W (Text.find_http_message_header_line _) _).symm.trans (http_message_header_line W hP i))

theorem C114_message_header (i : Input UInt8) : run W Text.http_message_header [ofInput i]
    = (do let r ← Http.messageHeader W.verbose i; pure (ofResult ofHeader ofError r)) :=
  run_eq W ((apply_fn W (Text.find_http_message_header _) _).symm.trans (http_message_header W hP i))

theorem C114_request (i : Input UInt8) : run W Text.http_request [ofInput i]
    = (do let r ← Http.request W.verbose i; pure (ofResult ofMessage ofError r)) :=
  run_eq W ((apply_fn W (Text.find_http_request _) _).symm.trans (http_request W hP i))

/-- With the grammar of C63: the text of `request` reads the request which the slice begins with. -/
theorem C114_reads (m : Mode) (t rest : List UInt8) (x : Request × List Header) (h : RequestText t x) :
    run W Text.http_request [ofInput ⟨m, t ++ rest⟩] = pure (ofResult ofMessage ofError (.data ⟨m, rest⟩ x)) := by
  rw [C114_request W hP]
  funext w
  rw [M.bind_apply, Same.request W.verbose _ w, (C63_grammar W.verbose m _ rest x).mpr ⟨t, h, rfl⟩]
  rfl

/-! ### `main` -/

variable [DataSource R UInt8] {y : R → Y} (hr : UserReads W y)

include hP hr in
/-- The first argument names a file which can be opened: the program does what the model says, and then prints one line. -/
theorem C114_main (name : Val UInt8 Y) (file : R) (ha : W.args[1]? = some name) (ho : W.openFile name = .ok (y file)) :
    run W Text.http_main [] = (do
      let n ← Http.main Build.checked W.verbose file
      W.print (ofText ("num: ".toList ++ W.display (num n) ++ ['\n']))
      pure .unit) := by
  have h := http_main W hP y hr name file ha ho
  have h' := run_at W (v := fun _ : Unit => .unit) (x := (do
      let n ← Http.main Build.checked W.verbose file
      W.print (ofText ("num: ".toList ++ W.display (num n) ++ ['\n'])))) (h.trans (bind_assoc ..).symm)
  exact h'.trans (bind_assoc ..)

variable [HonestSource R UInt8] {rem : R → List UInt8} {errs : R → Nat} (hd : Delivers R rem errs)
  (name : Val UInt8 Y) (file : R) (ha : W.args[1]? = some name) (ho : W.openFile name = .ok (y file))
  (hq : errs file = 0) (hl : (rem file).length + 5 ≤ usizeMax)
include hP hr hd ha ho hq hl

/-- If the file consists of requests of at most 6 KiB each, fewer than 2³¹, the program prints how many there are, once, and
ends. -/
theorem C114_counts (xs : List (Request × List Header)) (h : Sequence (ShortRequest 6144) (rem file) xs)
    (hn : xs.length < 2 ^ 31) :
    run W Text.http_main [] = (do
      W.print (ofText ("num: ".toList ++ W.display (num xs.length) ++ ['\n']))
      pure .unit) := by
  rw [C114_main W hP hr name file ha ho]
  funext w
  rw [M.bind_apply, Same.main _ _ file w, C70_counts hd _ _ file hq hl xs h hn]
  rfl

/-- If not, it panics, and has printed nothing. -/
theorem C114_panics (h : ∀ xs, ¬ Sequence (ShortRequest 6144) (rem file) xs) : run W Text.http_main [] = M.panic := by
  rw [C114_main W hP hr name file ha ho]
  funext w
  rw [M.bind_apply, Same.main _ _ file w, C70_panics hd _ _ file hq hl h]
  rfl

/-- With 2³¹ requests or more: a debug build panics, a release build prints the number modulo 2³², as a signed number. -/
theorem C114_overflow (xs : List (Request × List Header)) (h : Sequence (ShortRequest 6144) (rem file) xs)
    (hn : 2 ^ 31 ≤ xs.length) :
    run W Text.http_main [] = if Build.checked then M.panic else (do
      W.print (ofText ("num: ".toList ++ W.display (num (Int.bmod xs.length (2 ^ 32))) ++ ['\n']))
      pure .unit) := by
  rw [C114_main W hP hr name file ha ho]
  funext w
  rw [M.bind_apply, Same.main _ _ file w]
  cases hc : (Build.checked : Bool) with
  | true => rw [C70_overflow_debug hd _ file hq hl xs h hn]; rfl
  | false => 
    rw [C70_overflow_release hd _ file hq hl xs h]
    generalize Int.bmod xs.length (2 ^ 32) = z
    rfl

end

/-- Without an argument the program panics, ... -/
theorem C114_no_argument (h : W.args[1]? = none) : run W Text.http_main [] = M.panic := by
  have h := http_main_panic W (by simp [opened, h])
  funext w
  show Res.bind _ _ = _
  rw [show ((callFn W Text.http_main []).run.run [] : M σ _) = M.panic from h]
  rfl

/-- ... and if the file cannot be opened. -/
theorem C114_not_opened (name : Val UInt8 Y) (e : IoError) (ha : W.args[1]? = some name) (ho : W.openFile name = .error e) :
    run W Text.http_main [] = M.panic := by
  have h := http_main_panic W (by simp [opened, ha, ho])
  funext w
  show Res.bind _ _ = _
  rw [show ((callFn W Text.http_main []).run.run [] : M σ _) = M.panic from h]
  rfl

end

/-! ### The expansion of the blocks

The text above is what is left after the `parse!` blocks have been expanded. The expansion is that of the text of the macro
(C112), on the blocks as they are in the program (C85). -/

/-- `parse!{i; ts}` expands to `e`. -/
def Expands (ts : List Macro.TT) (e : Expr) : Prop :=
  ∃ x : Macro.Exp, MacroRules.invoke RustMacroEx.fragments 130 "parse" (MacroRules.users (.tok (.ident "i") :: .tok .semi :: ts))
    = some [.frag .expr (MacroRules.text x)] ∧ syntaxOf x = some e

theorem expands {ts : List Macro.TT} {x : Macro.Exp} {e : Expr}
    (h : Macro.parseText MacroEx.runs (fun _ => 1) 64 (.tok (.ident "i") :: .tok .semi :: ts) = some (.block x))
    (hs : syntaxOf x = some e) : Expands ts e :=
  ⟨x, C112_parse MacroEx.runs_lawful RustMacroEx.fragments_extends h, hs⟩

theorem C114_end_of_line_block : ∃ e, Expands Programs.endOfLine e ∧
    Text.http_end_of_line.body = .call (.path "or") [.path "i", .closure [.bind false "i"] e,
      .closure [.bind false "i"] (.call (.path "token") [.path "i", .byte 10])] :=
  ⟨_, expands rfl rfl, rfl⟩
theorem C114_http_version_block : Expands Programs.httpVersion Text.http_http_version.body := expands rfl rfl
theorem C114_request_line_block : Expands Programs.requestLine Text.http_request_line.body := expands rfl rfl
theorem C114_message_header_line_block : Expands Programs.messageHeaderLine Text.http_message_header_line.body :=
  expands rfl rfl
theorem C114_message_header_block : Expands Programs.messageHeader Text.http_message_header.body := expands rfl rfl
theorem C114_request_block : Expands Programs.request Text.http_request.body := expands rfl rfl

/-! ### Cases -/

namespace RustHttpEx

/-- What the program handles besides values of the crate: numbers and files. -/
inductive Thing where
  | num (n : Int)
  | file (s : Script UInt8)

/-- There is one file, with two requests, which is read in three pieces. What is printed is recorded. -/
def world [Build] (args : List (Val UInt8 Thing)) : World (List (Val UInt8 Thing)) UInt8 Thing where
  verbose := true
  ext _ _ := M.ub
  eq a b := pure (a == b)
  ne a b := pure (a != b)
  clone := pure
  cloneOther := pure
  from_ := pure
  byte n := UInt8.ofNat n
  le a b := a ≤ b
  sub a b := if b ≤ a then .ok (a - b) else .panic
  fromU8 x := pure <| .num ((Http.counter Build.checked).num.fromU8 x)
  fromI8 x := pure <| .num ((Http.counter Build.checked).num.fromI8 x)
  add a b := match a, b with
    | .num a, .num b => do let c ← M.lift ((Http.counter Build.checked).num.add a b); pure (.num c)
    | _, _ => M.ub
  mul a b := match a, b with
    | .num a, .num b => do let c ← M.lift ((Http.counter Build.checked).num.mul a b); pure (.num c)
    | _, _ => M.ub
  collect := vecOf.consumer.machine
  read y k := match y with
    | .file s => ((s.read k).1, .file (s.read k).2)
    | .num n => (⟨[], .ok 0⟩, .num n)
  display y := match y with
    | .num n => (toString n).toList
    | .file _ => []
  args := args
  openFile v := match v with
    | .nat 0 => .ok (.file HttpEx.file)
    | _ => .error ⟨2⟩
  print v := fun out => .ok ((), out ++ [v])

variable [Build]

theorem program (args : List (Val UInt8 Thing)) : Program (world args) .num where
  bytes := { byte := fun _ => rfl, eq := fun _ _ => rfl, le := fun _ _ => rfl, sub := fun _ _ => rfl }
  ne _ _ := rfl
  clone _ := rfl
  numbers := { fromU8 := fun _ => rfl, fromI8 := fun _ => rfl, add := fun _ _ => rfl, mul := fun _ _ => rfl }
  collect := rfl

theorem reads (args : List (Val UInt8 Thing)) : UserReads (world args) Thing.file := fun _ _ => rfl

-- the name of the program, and that of the file
example : run (world [.nat 7, .nat 0]) Text.http_main [] []
    = .ok (.unit, [ofText "num: 2\n".toList]) := by
  rw [C114_counts (world [.nat 7, .nat 0]) (program _) (reads _) Script.delivers (.nat 0) HttpEx.file rfl rfl rfl (by decide)
    [HttpEx.get, HttpEx.get] HttpEx.file_requests (by decide)]
  rfl

-- no such file
example : run (world [.nat 7, .nat 1]) Text.http_main [] [] = .panic := by
  rw [C114_not_opened _ (.nat 1) ⟨2⟩ rfl rfl]
  rfl

-- no argument
example : run (world [.nat 7]) Text.http_main [] [] = .panic := by
  rw [C114_no_argument _ rfl]
  rfl

-- one of the requests, and what follows
example (rest : List UInt8) :
    run (world []) Text.http_request [ofInput ⟨.default, Spec.bytes "GET  /x  HTTP/1.1\nHost:\ta b\n \r\n\n" ++ rest⟩]
      = pure (ofResult ofMessage ofError (.data ⟨.default, rest⟩ HttpEx.get)) :=
  C114_reads _ (program _) _ _ _ _ HttpEx.get_text

end RustHttpEx

end Chomp.Props
