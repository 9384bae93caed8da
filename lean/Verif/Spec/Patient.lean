import Verif.Spec.Records

/-
Reading one record after the other to the end, with I/O errors taken for temporary, from a `Source` and
from a slice. Definitions only.
-/

namespace Chomp.Spec

/-- ```text
loop {
    match s.parse(p) {
        Ok(t)                                            => a = f(a, t),
        Err(StreamError::Retry | StreamError::IoError(_)) => {},
        Err(StreamError::EndOfInput)                     => break Ok(a),
        Err(e)                                           => break Err(e),
    }
}
``` -/
def patient {S B I : Type} [DataSource S I] [Buffer B I] (chk : Bool) (p : Parser σ I T E)
    (f : A → T → Res A) (s : Source S B) (a : A) : M σ (Except (StreamError I E) A) :=
  loop (fun x => do
    let (r, s) ← x.1.parse chk p
    match r with
    | .ok t => do
      let a ← M.lift (f x.2 t)
      pure (.inl (s, a))
    | .error .retry => pure (.inl (s, x.2))
    | .error (.ioError _) => pure (.inl (s, x.2))
    | .error .endOfInput => pure (.inr (.ok x.2))
    | .error (.incomplete n) => pure (.inr (.error (.incomplete n)))
    | .error (.parseError b e) => pure (.inr (.error (.parseError b e)))) (s, a)

/-- The same with a `SliceStream`, which returns neither `Retry` nor I/O errors. -/
def fromSlice (chk : Bool) (p : Parser σ I T E) (f : A → T → Res A) (s : SliceStream I) (a : A) :
    M σ (Except (StreamError I E) A) :=
  loop (fun x => do
    let (r, s) ← x.1.parse chk p
    match r with
    | .ok t => do
      let a ← M.lift (f x.2 t)
      pure (.inl (s, a))
    | .error .endOfInput => pure (.inr (.ok x.2))
    | .error e => pure (.inr (.error e))) (s, a)

/-- A parser which can be called again and again. -/
structure Reader (K : Nat) (p : Parser Unit I T E) : Prop where
  /-- assembled from the parts of the library which do not depend on where the input is cut -/
  built : Built ⟨false, true, some K⟩ p
  /-- it terminates, and does not panic -/
  returns : ∀ i, ∃ r, p i () = .ok (r, ())
  /-- what it returns has taken something -/
  consumes : ∀ i i' t, p i () = .ok (.data i' t, ()) → i'.buf.length < i.buf.length
  /-- nothing is not an error -/
  empty : ∃ n, p ⟨.default, []⟩ () = .ok (.incomplete n, ())

/-- The data `b` begins with what `p` returns if called again and again, `xs`, and `rest` follows. -/
inductive Values (p : Parser Unit I T E) : List I → List T → List I → Prop
  | nil {b} : Values p b [] b
  | cons {b b' rest t ts} : p ⟨.endOfInput, b⟩ () = .ok (.data ⟨.endOfInput, b'⟩ t, ()) →
      Values p b' ts rest → Values p b (t :: ts) rest

/-- There is no further value. -/
def Stops (p : Parser Unit I T E) (rest : List I) : Prop :=
  rest = [] ∨ ∀ i t, p ⟨.endOfInput, rest⟩ () ≠ .ok (.data i t, ())

/-- Why there is no further value: there is no data left, or it is not enough, or the parser fails. `r`
is the answer then. With an error comes the slice at which it occurred, or the part of it which has been
read. -/
inductive Last (p : Parser Unit I T E) (a : A) : List I → Except (StreamError I E) A → Prop
  | done : Last p a [] (.ok a)
  | incomplete {rest n} : rest ≠ [] → p ⟨.endOfInput, rest⟩ () = .ok (.incomplete n, ()) →
      Last p a rest (.error (.incomplete (rest.length + n)))
  | error {rest x y e} : rest ≠ [] → p ⟨.endOfInput, rest⟩ () = .ok (.error (x ++ y) e, ()) →
      Last p a rest (.error (.parseError x e))

end Chomp.Spec
