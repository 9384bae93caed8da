import Verif.Spec.Peg

/-
A check on the text of a grammar. This file contains definitions only.
-/

namespace Chomp.Spec

/-- `f` applied `n` times. -/
def rounds (f : A → A) : Nat → A → A
  | 0, x => x
  | n + 1, x => f (rounds f n x)

namespace Peg

/-- A success consumes an item, if a success of a nonterminal `k` with `u k` does. -/
def consumes (u : K → Bool) : Peg K I → Bool
  | empty => false
  | item _ => true
  | call k => u k
  | seq a b => a.consumes u || b.consumes u
  | alt a b => a.consumes u && b.consumes u
  | star _ => false
  | not _ => false

/-- Until an item has been consumed, only the nonterminals `ok` are used; and nothing is repeated which might
not consume. -/
def guarded (u : K → Bool) (ok : K → Bool) : Peg K I → Bool
  | empty => true
  | item _ => true
  | call k => ok k
  | seq a b => a.guarded u ok && b.guarded u (fun k => a.consumes u || ok k)
  | alt a b => a.guarded u ok && b.guarded u ok
  | star a => a.guarded u ok && a.consumes u
  | not a => a.guarded u ok

/-- The nonterminals of which a success consumes an item. All of them are assumed to at first; `names` are the
nonterminals. -/
def consuming (names : List K) (G : K → Peg K I) : K → Bool :=
  rounds (fun u k => (G k).consumes u) names.length (fun _ => true)

/-- The check: in each round, those nonterminals are accepted which use only nonterminals accepted before
until they have consumed an item. In the end all have to be accepted. -/
def wellFormed (names : List K) (G : K → Peg K I) : Bool :=
  names.all <| rounds (fun ok k => (G k).guarded (consuming names G) ok) names.length (fun _ => false)

/-- What the check looks for: a choice of consuming nonterminals and a ranking, such that a nonterminal uses
only such of lower rank until it has consumed an item. -/
def Ranked (G : K → Peg K I) (u : K → Bool) (rk : K → Nat) : Prop :=
  ∀ k, (u k = true → (G k).consumes u = true) ∧
    (G k).guarded u (fun j => decide (rk j < rk k)) = true

end Peg

end Chomp.Spec
