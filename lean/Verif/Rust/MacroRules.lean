import Verif.Rust.MacroText

/-
How rules of `macro_rules!` are applied.

A rule is matched token tree by token tree, with all the places of the left hand side in parallel where a repetition may
go on or end (`Thread`), and without going back. If a fragment can be next, nothing else may be; the fragment is parsed,
and if this fails the expansion fails, without trying further rules. That is what rustc does (`macro_parser.rs`). The only
tokens which are known not to begin a fragment are `,` for expressions, and all but identifiers for `ident`; later versions
of rustc know more, and then try further rules where the expansion fails here.

How Rust parses expressions, types and patterns is a parameter (`Parse`).
-/

namespace Chomp.MacroRules

open Chomp.Macro (Tok Delim TT Fragments)

/-- Token trees in the course of an expansion. -/
inductive Tree where
  /-- A token, and whether it comes from the right hand side of a rule. -/
  | tok (t : Tok) (rule : Bool)
  | group (d : Delim) (ts : List Tree)
  /-- A fragment which was parsed. -/
  | frag (k : Frag) (ts : List Tree)
  /-- An invocation on the right hand side of a rule, which is expanded later. -/
  | call (m : String) (ts : List Tree)

/-- The fragment of this kind at the beginning of the token trees, and how many trees it has after the first. -/
abbrev Parse := Frag → List Tree → Option (Tree × Nat)

/-- What the variables were bound to, in order; those in repetitions possibly several times. -/
abbrev Env := List (String × Tree)

abbrev Thread := List Pat × Env

/-- The places after `ps` where something is expected. -/
def heads : List Pat → List (List Pat)
  | .rep x k sep plus :: ps => (.var x k :: .again x k sep :: ps) :: (if plus then [] else heads ps)
  | .again x k none :: ps => (.var x k :: .again x k none :: ps) :: heads ps
  | .again x k (some t) :: ps => (.tok t :: .var x k :: .again x k (some t) :: ps) :: heads ps
  | .reps t :: ps => (.tok t :: .reps t :: ps) :: heads ps
  | ps => [ps]

def start (ps : List Pat) (env : Env) : List Thread := (heads ps).map (·, env)

/-- Whether a fragment may begin with a token tree. -/
def begins : Frag → Tree → Bool
  | .ident, .tok (.ident _) _ => true
  | .ident, _ => false
  | .expr, .tok .comma _ => false
  | _, _ => true

/-- What can be done with the next tree at a place. -/
inductive Act where
  /-- The token expected is there. -/
  | token (next : Thread)
  /-- The delimiter expected is there. -/
  | group (ps next : List Pat) (env : Env)
  /-- A fragment is expected. -/
  | frag (x : String) (k : Frag) (next : List Pat) (env : Env)

def act (t : Tree) : Thread → Option Act
  | (.tok u :: ps, env) =>
    match t with
    | .tok v _ => if u = v then some (.token (ps, env)) else none
    | _ => none
  | (.group d qs :: ps, env) =>
    match t with
    | .group d' _ => if d = d' then some (.group qs ps env) else none
    | _ => none
  | (.var x k :: ps, env) => if begins k t then some (.frag x k ps env) else none
  | _ => none

/-- The threads after a token, if one was expected in all of them. -/
def tokens : List Act → Option (List Thread)
  | [] => some []
  | .token (ps, env) :: as => (tokens as).map (start ps env ++ ·)
  | _ :: _ => none

inductive Outcome where
  | ok (env : Env)
  /-- This rule does not match. -/
  | no
  /-- The expansion fails. -/
  | err

/-- At the end: there has to be one place where nothing is expected any more. -/
def finish (hs : List Thread) : Outcome :=
  match hs.filter (fun h => h.1.isEmpty) with
  | [] => .no
  | [h] => .ok h.2
  | _ => .err

mutual

/-- Match the trees; the first ones belong to a fragment which has been parsed. -/
def run (P : Parse) (hs : List Thread) (skip : Nat) : List Tree → Outcome
  | [] => if skip = 0 then finish hs else .err
  | t :: ts =>
    match skip with
    | skip + 1 => run P hs skip ts
    | 0 =>
      match hs.filterMap (act t) with
      | [] => .no
      | [.group qs ps env] =>
        match inside P qs env t with
        | .ok env => run P (start ps env) 0 ts
        | o => o
      | [.frag x k ps env] =>
        match k with
        | .tt | .ident => run P (start ps (env ++ [(x, t)])) 0 ts
        | k =>
          match P k (t :: ts) with
          | some (u, n) => run P (start ps (env ++ [(x, u)])) n ts
          | none => .err
      | as =>
        match tokens as with
        | some hs => run P hs 0 ts
        | none => .err

/-- Match what is in a group. -/
def inside (P : Parse) (qs : List Pat) (env : Env) : Tree → Outcome
  | .group _ ts => run P (start qs env) 0 ts
  | _ => .no

end

/-- What `$x` was bound to. (Rules in which it was not are rejected by rustc.) -/
def Env.one (env : Env) (x : String) : List Tree :=
  match env.find? (fun b => b.1 = x) with
  | some b => [b.2]
  | none => []

/-- What `$x` in a repetition was bound to. -/
def Env.many (env : Env) (x : String) : List Tree := (env.filter (fun b => b.1 = x)).map (·.2)

mutual

/-- The right hand side of a rule, with variables replaced. -/
def Tpl.trees (env : Env) : Tpl → List Tree
  | .tok t => [.tok t true]
  | .group d ts => [.group d (trees env ts)]
  | .var x => env.one x
  | .rep x none => env.many x
  | .rep x (some t) => (env.many x).intersperse (.tok t true)
  | .call m ts => [.call m (trees env ts)]

def trees (env : Env) : List Tpl → List Tree
  | [] => []
  | t :: ts => t.trees env ++ trees env ts

end

/-- The right hand side of the first rule which matches. -/
def firstArm (P : Parse) : List Arm → List Tree → Option (List Tree)
  | [], _ => none
  | a :: as, ts =>
    match run P (start a.pat []) 0 ts with
    | .ok env => some (trees env a.tpl)
    | .no => firstArm P as ts
    | .err => none

/-- What an invocation expanded to as an expression; parentheses which are not written do not pile up. -/
def wrap : List Tree → Tree
  | [.frag .expr ts] => .frag .expr ts
  | ts => .frag .expr ts

mutual

/-- Expand the invocations in a tree. -/
def Tree.expand (f : String → List Tree → Option (List Tree)) : Tree → Option Tree
  | .tok t r => some (.tok t r)
  | .group d ts => (expands f ts).map (.group d)
  | .frag k ts => (expands f ts).map (.frag k)
  | .call m ts => (f m ts).map wrap

def expands (f : String → List Tree → Option (List Tree)) : List Tree → Option (List Tree)
  | [] => some []
  | t :: ts => do
    let t ← t.expand f
    let ts ← expands f ts
    some (t :: ts)

end

/-- Expand `m!{ts}` with at most this many nested invocations: first this one, then those in the result. -/
def invoke (P : Parse) : Nat → String → List Tree → Option (List Tree)
  | 0, _, _ => none
  | n + 1, m, ts => do
    let arms ← Text.find m
    let out ← firstArm P arms ts
    expands (invoke P n) out

mutual

/-- Tokens which are given to the macro. -/
def user : TT → Tree
  | .tok t => .tok t false
  | .group d ts => .group d (users ts)

def users : List TT → List Tree
  | [] => []
  | t :: ts => user t :: users ts

end

end Chomp.MacroRules
