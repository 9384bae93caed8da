import Verif.Spec.Built
import Verif.Model.Stream

/-
Notions for stating the properties of `SliceStream`. Definitions only.
-/

namespace Chomp.Spec

/-- What has not been parsed yet. -/
def unread (s : SliceStream I) : List I := s.slice.drop s.pos

/-- The position is inside of the slice, whose length is a `usize`. -/
def ValidSlice (s : SliceStream I) : Prop := s.pos ≤ s.slice.length ∧ s.slice.length ≤ usizeMax

/-- Any number of calls of `parse`, with parsers assembled from the library. -/
inductive SliceHistory (chk : Bool) : SliceStream I → σ → SliceStream I → σ → Prop
  | done {s w} : SliceHistory chk s w s w
  | step {T E : Type} {s s1 s2 : SliceStream I} {w w1 w2 : σ} (p : Parser σ I T E)
      {r : Except (StreamError I E) T} : Built everything p →
      s.parse chk p w = .ok ((r, s1), w1) → SliceHistory chk s1 w1 s2 w2 → SliceHistory chk s w s2 w2

/-- Calls of `parse` which all succeed, and their results. -/
inductive SliceSeq (chk : Bool) :
    List (Parser σ I T E) → SliceStream I → σ → List T → SliceStream I → σ → Prop
  | done {s w} : SliceSeq chk [] s w [] s w
  | step {p : Parser σ I T E} {ps s w t s1 w1 ts s2 w2} :
      s.parse chk p w = .ok ((.ok t, s1), w1) → SliceSeq chk ps s1 w1 ts s2 w2 →
      SliceSeq chk (p :: ps) s w (t :: ts) s2 w2

/-- The same parsers, put together with `bind`. -/
def bindAll : List (Parser σ I T E) → Parser σ I (List T) E
  | [] => Parser.ret []
  | p :: ps => p.bind id (fun t => (bindAll ps).map (fun ts => t :: ts))

end Chomp.Spec
