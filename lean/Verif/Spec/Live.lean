import Verif.Model.Live
import Verif.Spec.Source

/-
Notions for stating C119: data sources which do something. Definitions only.
-/

namespace Chomp.Spec.Live

variable {σ S B I : Type}

/-- A source which, whenever a read returns, has written as many items as it says, and not more than there was
room for; compare `HonestSource`. Nothing is asked of reads which do not return. -/
class Honest (σ S : Type) (I : outParam Type) [LiveSource σ S I] : Prop where
  honest : ∀ (s s' : S) (k n : Nat) (w w' : σ) (out : ReadOut I),
    LiveSource.read s k w = .ok ((out, s'), w') → out.result = .ok n → n ≤ k ∧ out.items.length = n

/-- Some calls of `read`, one after the other, lead from the source `s` and the state `w` to `s'` and `w'`, and
yield `xs`. All of them return. -/
inductive ReadsTo [LiveSource σ S I] : S → σ → List I → S → σ → Prop
  | done {s w} : ReadsTo s w [] s w
  | step {s s1 s' : S} {w w1 w' : σ} {out : ReadOut I} {xs : List I} (k : Nat) :
      LiveSource.read s k w = .ok ((out, s1), w1) → ReadsTo s1 w1 xs s' w' →
      ReadsTo s w (out.items ++ xs) s' w'

/-- As `ReadsTo`, but between one read and the next somebody else may change the state. -/
inductive Handed (σ : Type) [LiveSource σ S I] : S → List I → S → Prop
  | done {s} : Handed σ s [] s
  | step {s s1 s' : S} {w w1 : σ} {out : ReadOut I} {xs : List I} (k : Nat) :
      LiveSource.read s k w = .ok ((out, s1), w1) → Handed σ s1 xs s' →
      Handed σ s (out.items ++ xs) s'

/-- The last of the reads leading from `s` and `w` to `s'` and `w'` and yielding `xs` had the result `r`, and
yielded nothing. -/
def LastReadTo [LiveSource σ S I] (s : S) (w : σ) (xs : List I) (r : Except IoError Nat) (s' : S) (w' : σ) : Prop :=
  ∃ s1 w1 k out, ReadsTo s w xs s1 w1 ∧ LiveSource.read s1 k w1 = .ok ((out, s'), w') ∧
    out.result = r ∧ out.items = []

/-- Both do not return, for the same reason. -/
inductive Same : Res α → Res β → Prop
  | panic : Same .panic .panic
  | ub : Same .ub .ub
  | div : Same .div .div

/-- After some reads which return there is one which does not; `o` is its outcome. -/
def Fails [LiveSource σ S I] (s : S) (w : σ) (o : Res α) : Prop :=
  ∃ xs s1 w1 k, ReadsTo s w xs s1 w1 ∧ Same (LiveSource.read (I := I) s1 k w1) o

/-- `fill` calls `read` once, or panics without having called it; what it does apart from that does not depend on
the source. -/
class OneRead (B : Type) (I : outParam Type) [Buffer B I] [LiveBuffer B I] : Prop where
  fill : ∀ (chk : Bool) (b : B),
    ((∀ (σ S : Type) [LiveSource σ S I] (s : S), LiveBuffer.fill (σ := σ) chk s b = M.panic) ∧
      ∀ (S : Type) [DataSource S I] (s : S), Buffer.fill chk s b = .panic) ∨
    ∃ (k : Nat) (post : ReadOut I → Res (Except IoError Nat × B)),
      (∀ (σ S : Type) [LiveSource σ S I] (s : S) (w : σ), LiveBuffer.fill chk s b w =
        LiveSource.read s k w >>= fun x => post x.1.1 >>= fun y => .ok ((y.1, x.1.2, y.2), x.2)) ∧
      ∀ (S : Type) [DataSource S I] (s : S), Buffer.fill chk s b =
        post (DataSource.read s k).1 >>= fun y => .ok (y.1, (DataSource.read s k).2, y.2)

/-- The filling with which `parse` begins. -/
def autofill [LiveSource σ S I] [Buffer B I] [LiveBuffer B I] (chk : Bool) (s : Source S B) :
    M σ (Except IoError Nat × Source S B) :=
  if s.state.incomplete && s.state.automaticFill then s.fillLive chk else pure (.ok 0, s)

variable [LiveSource σ S I] [Buffer B I] [LiveBuffer B I] [LawfulBuffer B I]

/-- The operations on a `Source` and the items they hand out; compare `SourceStep`. -/
inductive Step (chk : Bool) : Source S B → σ → List I → Source S B → σ → Prop
  | parse {T E : Type} {s s1 s' : Source S B} {w w1 w' : σ} (p : Parser σ I T E)
      {r : Except (StreamError I E) T} {q : Except IoError Nat} {x : List I} : Built everything p →
      s.parseLive chk p w = .ok ((r, s'), w') → autofill chk s w = .ok ((q, s1), w1) → held s1 = x ++ held s' →
      Step chk s w x s' w'
  | fill {s s' : Source S B} {w w' : σ} {r} : s.fillLive chk w = .ok ((r, s'), w') → Step chk s w [] s' w'
  | read {s s' : Source S B} {w w' : σ} {xs : List I} (k : Nat) :
      s.readLive chk k w = .ok ((.ok xs, s'), w') → Step chk s w xs s' w'
  | readErr {s s' : Source S B} {w w' : σ} {e} (k : Nat) :
      s.readLive chk k w = .ok ((.error e, s'), w') → Step chk s w [] s' w'
  | fillBuf {s s' : Source S B} {w w' : σ} {r} : s.fillBufLive chk w = .ok ((r, s'), w') → Step chk s w [] s' w'
  | consume {s s' : Source S B} {w : σ} (k : Nat) : k ≤ (held s).length →
      s.consume chk k = .ok s' → Step chk s w ((held s).take k) s' w
  | reset {s : Source S B} {w : σ} : Step chk s w [] s.reset w
  | setAutofill {s : Source S B} {w : σ} (v : Bool) : Step chk s w [] (s.setAutofill v) w
  /- whatever else happens to the state between two operations -/
  | elsewhere {s : Source S B} {w w' : σ} : Step chk s w [] s w'

/-- Any number of operations, and all the items they hand out. -/
inductive History (chk : Bool) : Source S B → σ → List I → Source S B → σ → Prop
  | done {s w} : History chk s w [] s w
  | step {s w x s1 w1 y s2 w2} : Step chk s w x s1 w1 → History chk s1 w1 y s2 w2 →
      History chk s w (x ++ y) s2 w2

/-- A source without effects, as one which may have effects but has not. -/
@[reducible] def ofPure (σ : Type) {S I : Type} [DataSource S I] : LiveSource σ S I where
  read s k := pure (DataSource.read s k)

/-- Some calls of `next`, one after the other, lead from `j` and `w` to `j'` and `w'`; each of them yields an item,
together they yield `xs`. -/
inductive Nexts [LiveIter σ J I] : J → σ → List I → J → σ → Prop
  | done {j w} : Nexts j w [] j w
  | step {j j1 j' : J} {w w1 w' : σ} {x : I} {xs : List I} :
      LiveIter.next j w = .ok ((some x, j1), w1) → Nexts j1 w1 xs j' w' → Nexts j w (x :: xs) j' w'

end Chomp.Spec.Live
