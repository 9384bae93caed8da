import Verif.Spec.Retry

/-
The program which reads one record after the other until the end of the stream, and what it is
compared with. Definitions only.
-/

namespace Chomp.Spec

/-- ```text
loop {
    match s.parse(p) {
        Ok(t)                        => a = f(a, t),
        Err(StreamError::Retry)      => {},
        Err(StreamError::EndOfInput) => break Ok(a),
        Err(e)                       => break Err(e),
    }
}
``` -/
def records {S B I : Type} [DataSource S I] [Buffer B I] (chk : Bool) (p : Parser σ I T E)
    (f : A → T → Res A) (s : Source S B) (a : A) : M σ (Except (StreamError I E) A) :=
  loop (fun x => do
    let (r, s) ← x.1.parse chk p
    match r with
    | .ok t => do
      let a ← M.lift (f x.2 t)
      pure (.inl (s, a))
    | .error .retry => pure (.inl (s, x.2))
    | .error .endOfInput => pure (.inr (.ok x.2))
    | .error (.incomplete n) => pure (.inr (.error (.incomplete n)))
    | .error (.parseError b e) => pure (.inr (.error (.parseError b e)))
    | .error (.ioError e) => pure (.inr (.error (.ioError e)))) (s, a)

/-- A parser for records. -/
structure RecordParser (K : Nat) (p : Parser Unit I T E) : Prop where
  /-- assembled from the parts of the library which do not depend on where the input is cut -/
  built : Built ⟨false, true, some K⟩ p
  /-- it terminates, and does not panic -/
  returns : ∀ i, ∃ r, p i () = .ok (r, ())
  /-- records are not empty -/
  consumes : ∀ i i' t, p i () = .ok (.data i' t, ()) → i'.buf.length < i.buf.length
  /-- nothing is not an error -/
  empty : ∃ n, p ⟨.default, []⟩ () = .ok (.incomplete n, ())
  /-- records end by themselves, not because the input ends -/
  delimited : ∀ b r t, p ⟨.endOfInput, b⟩ () = .ok (.data ⟨.endOfInput, r⟩ t, ()) →
    p ⟨.default, b⟩ () = .ok (.data ⟨.default, r⟩ t, ())

/-- The data begins with a record `t`, `rest` follows, and nothing the parser asks for on the way is over
the size of the buffer. -/
structure First (p : Parser Unit I T E) (size : Nat) (b : List I) (t : T) (rest : List I) : Prop where
  parses : p ⟨.endOfInput, b⟩ () = .ok (.data ⟨.endOfInput, rest⟩ t, ())
  fits : ∀ x y n, b = x ++ y → p ⟨.default, x⟩ () = .ok (.incomplete n, ()) → x.length + n ≤ size

/-- The data begins with these records, and `rest` follows. -/
inductive Records (p : Parser Unit I T E) (size : Nat) : List I → List T → List I → Prop
  | nil {b} : Records p size b [] b
  | cons {b b' rest t ts} : First p size b t b' → Records p size b' ts rest →
      Records p size b (t :: ts) rest

end Chomp.Spec
