import Verif.Spec.Retry

/-
Watching when a source of data is read. Definitions only.
-/

namespace Chomp.Spec

/-- A source of data which keeps a record of its reads: for each of them, how many items it had
delivered before. -/
structure Watched (S : Type) where
  source : S
  total : Nat
  log : List Nat

instance Watched.instDataSource [DataSource S I] : DataSource (Watched S) I where
  read s k :=
    let (out, s') := DataSource.read s.source k
    (out, ⟨s', s.total + out.items.length, s.log ++ [s.total]⟩)

/-- What is left to deliver. -/
def Watched.rem (rem : S → List I) (s : Watched S) : List I := rem s.source

/-- Every read made on the way from `s` to `s'` was made while fewer than `k` items were there: the
items in the buffer of `s` and those delivered since. -/
def ReadsBelow [Buffer B I] [LawfulBuffer B I] (k : Nat) (s s' : Source (Watched S) B) : Prop :=
  ∃ new, s'.source.log = s.source.log ++ new ∧
    ∀ d ∈ new, s.source.total ≤ d ∧ (held s).length + (d - s.source.total) < k

/-- No beginning of the data makes `p` ask for more than `k` items in total. -/
def AsksWithin (k : Nat) (p : Parser σ I T E) (data : List I) : Prop :=
  ∀ x y w n w', data = x ++ y → p ⟨.default, x⟩ w = .ok (.incomplete n, w') → x.length + n ≤ k

/-- A parser has come to a verdict: a value or an error. -/
def Verdict (x : Res (ParseResult I T E × σ)) : Prop :=
  ∃ r w, x = .ok (r, w) ∧ ∀ n, r ≠ .incomplete n

/-- One exchange of a dialogue: the parser which is to read a message, the message, and its value. -/
structure Exchange (I T E : Type) where
  parser : Parser Unit I T E
  message : List I
  value : T

/-- The message is not empty, and the parser reads exactly the message without asking for anything
after it. -/
structure Exchange.Fair (c : Exchange I T E) : Prop where
  built : Built streaming c.parser
  nonempty : c.message ≠ []
  reads : c.parser ⟨.default, c.message⟩ () = .ok (.data ⟨.default, []⟩ c.value, ())

/-- All the messages, one after the other. -/
def messages (cs : List (Exchange I T E)) : List I := cs.flatMap (·.message)

end Chomp.Spec
