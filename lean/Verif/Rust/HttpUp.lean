import Verif.Rust.HttpMain
import Verif.Lemmas.Release

/-
The program of examples/http_parser.rs reads and writes no captured state, and its subtractions do not go
below zero: it is the same whatever the state, and in every build.
-/

namespace Chomp

/-- `x` does what `y` does, and leaves its state alone. -/
def Same (x : M σ A) (y : M Unit A) : Prop := ∀ w, x w = Res.bind (y ()) fun r => .ok (r.1, w)

namespace Same

theorem pure (a : A) : Same (σ := σ) (Pure.pure a) (Pure.pure a) := fun _ => rfl

theorem panic : Same (σ := σ) (A := A) M.panic M.panic := fun _ => rfl

theorem lift (x : Res A) : Same (σ := σ) (M.lift x) (M.lift x) := fun w => by
  cases x <;> rfl

theorem bind {x : M σ A} {y : M Unit A} {f : A → M σ B} {g : A → M Unit B} (h : Same x y) (hf : ∀ a, Same (f a) (g a)) :
    Same (x >>= f) (y >>= g) := fun w => by
  rw [M.bind_apply, M.bind_apply, h]
  cases y () with
  | ok r => exact hf r.1 w
  | _ => rfl

theorem eq_lift {x : M σ A} {y : M Unit A} : Same x y ↔ x = M.lift (do let r ← y (); .ok r.1) := by
  have : ∀ w, (M.lift (do let r ← y (); .ok r.1) : M σ A) w = Res.bind (y ()) fun r => .ok (r.1, w) := by
    intro w
    unfold M.lift
    cases y () <;> rfl
  constructor
  · intro h
    funext w
    rw [this, h]
  · rintro rfl w
    exact this w

theorem loop {f : S → M σ (S ⊕ R)} {g : S → M Unit (S ⊕ R)} (h : ∀ s, Same (f s) (g s)) (s : S) :
    Same (loop f s) (loop g s) := by
  rw [eq_lift, Rust.loop_lift]
  congr 1
  funext s
  exact eq_lift.mp (h s)

theorem sliceFrom (l : List A) (n : Nat) : Same (σ := σ) (sliceFrom l n) (Chomp.sliceFrom l n) := by
  unfold Chomp.sliceFrom
  split
  · exact pure _
  · exact panic

theorem sliceTo (l : List A) (n : Nat) : Same (σ := σ) (sliceTo l n) (Chomp.sliceTo l n) := by
  unfold Chomp.sliceTo
  split
  · exact pure _
  · exact panic

/-- The same for parsers; the second one in a debug build. -/
def Parses (p : Parser σ I T E) (q : Parser Unit I T E) : Prop := ∀ i, Same (p i) (q i)

theorem token [DecidableEq I] (v : Bool) (t : I) : Parses (σ := σ) (Parsers.token v t) (Parsers.token v t) := by
  intro i
  unfold Parsers.token
  split
  · exact pure _
  · split
    · exact bind (sliceFrom _ _) fun _ => pure _
    · exact pure _

theorem takeWhile1 (v : Bool) (f : I → Bool) : Parses (σ := σ) (Parsers.takeWhile1 v f) (Parsers.takeWhile1 v f) := by
  intro i
  unfold Parsers.takeWhile1
  dsimp only
  split
  · exact pure _
  · exact bind (sliceFrom _ _) fun _ => bind (sliceTo _ _) fun _ => pure _
  · split
    · exact bind (sliceTo _ _) fun _ => pure _
    · exact pure _

theorem takeTill (f : I → Bool) : Parses (σ := σ) (Parsers.takeTill f) (Parsers.takeTill f) := by
  intro i
  unfold Parsers.takeTill
  dsimp only
  split
  · exact bind (sliceFrom _ _) fun _ => bind (sliceTo _ _) fun _ => pure _
  · exact pure _

theorem string_debug [DecidableEq I] (v : Bool) (s : List I) :
    Parses (σ := σ) (@Parsers.string Build.debug _ _ _ v s) (@Parsers.string Build.debug _ _ _ v s) := by
  intro i
  unfold Parsers.string
  dsimp only
  split
  · exact bind (lift _) fun _ => pure _
  · refine bind (sliceTo _ _) fun _ => ?_
    split
    · unfold Err.string
      split
      · exact pure _
      · exact bind (sliceFrom _ _) fun _ => pure _
    · exact bind (sliceFrom _ _) fun _ => pure _

theorem ret (t : T) : Parses (σ := σ) (I := I) (E := E) (Parser.ret t) (Parser.ret t) := fun _ => pure _

theorem mapErr (r : ParseResult I T E) (f : E → V) :
    Same (σ := σ) (r.mapErr (fun e => Pure.pure (f e))) (r.mapErr (fun e => Pure.pure (f e))) := by
  cases r with
  | error b e => exact bind (pure _) fun _ => pure _
  | _ => exact pure _

theorem bindP {conv : E → V} {p : Parser σ I T E} {q : Parser Unit I T E} {f : T → Parser σ I U V} {g : T → Parser Unit I U V}
    (h : Parses p q) (hf : ∀ t, Parses (f t) (g t)) : Parses (Parser.bind conv p f) (Parser.bind conv q g) := by
  intro i
  refine bind (h i) fun r => ?_
  cases r with
  | data i t => exact bind (hf t i) fun q => mapErr q id
  | _ => exact pure _

theorem andThenP {conv : E → V} {p : Parser σ I T E} {q : Parser Unit I T E} {f : Parser σ I U V} {g : Parser Unit I U V}
    (h : Parses p q) (hf : Parses f g) : Parses (Parser.andThen conv p f) (Parser.andThen conv q g) := by
  intro i
  refine bind (h i) fun r => ?_
  cases r with
  | data i t => exact bind (hf i) fun q => mapErr q id
  | _ => exact pure _

theorem orP {p f : Parser σ I T E} {q g : Parser Unit I T E} (h : Parses p q) (hf : Parses f g) : Parses (Comb.or p f) (Comb.or q g) := by
  intro i
  unfold Comb.or
  refine bind (h i) fun r => ?_
  cases r with
  | data i t => exact pure _
  | error => exact hf i
  | incomplete n =>
    dsimp only
    split
    · exact hf i
    · exact pure _

section
open Bounded

theorem iterNext {h : Hooks σ D} {h' : Hooks Unit D} (hp : h.pre = h'.pre) (ho : ∀ d, Same (h.on d) (h'.on d))
    {p : Parser σ I U E} {q : Parser Unit I U E} (hq : Parses p q) (it : Bounded.Iter I E D) :
    Same (Bounded.iterNext h p it) (Bounded.iterNext h' q it) := by
  unfold Bounded.iterNext
  rw [hp]
  split
  · exact pure _
  · refine bind (hq _) fun r => ?_
    cases r with
    | data b v => exact bind (ho _) fun _ => pure _
    | _ => exact pure _

theorem fromIter (c : Collect U T) {f : It → M σ (Option U × It)} {g : It → M Unit (Option U × It)} (h : ∀ it, Same (f it) (g it)) (it : It) :
    Same (fromIter c f it) (Chomp.fromIter c g it) := by
  unfold Chomp.fromIter
  split
  · exact pure _
  · refine loop (fun s => bind (h _) fun r => ?_) _
    obtain ⟨o, it'⟩ := r
    cases o with
    | none => exact pure _
    | some u =>
      dsimp only
      split
      · exact pure _
      · exact pure _

theorem runIter (c : Collect U T) (d : D) {h : Hooks σ D} {h' : Hooks Unit D} (hp : h.pre = h'.pre) (ho : ∀ d, Same (h.on d) (h'.on d))
    (fin : T → Input I → D → EndState I E → ParseResult I T E)
    {p : Parser σ I U E} {q : Parser Unit I U E} (hq : Parses p q) :
    Parses (Bounded.runIter c.driver d h fin p) (Bounded.runIter c.driver d h' fin q) := fun _ =>
  bind (fromIter c (iterNext hp ho hq) _) fun _ => pure _

variable [Build]

theorem many (c : Collect U T) {p : Parser σ I U E} {q : Parser Unit I U E} (hq : Parses p q) :
    Parses (Comb.many c p) (@Comb.many Build.debug _ _ _ _ _ c q) := by
  unfold Comb.many Bounded.many manyWith
  dsimp only
  unfold manyFull
  apply runIter
  · rfl
  · exact fun _ => pure _
  · exact hq

theorem many1 (c : Collect U T) {p : Parser σ I U E} {q : Parser Unit I U E} (hq : Parses p q) :
    Parses (Comb.many1 c p) (@Comb.many1 Build.debug _ _ _ _ _ c q) := by
  unfold Comb.many1 Bounded.many manyWith
  dsimp only
  unfold manyFrom
  refine runIter c 1 (h := hooksFrom) (h' := @hooksFrom Build.debug _) rfl (fun d => ?_) _ hq
  show Same (decSat d) (@decSat Build.debug _ d)
  rw [decSat_build _ Build.debug]
  unfold decSat
  split
  · exact pure _
  · exact lift _

end

variable [Build]

theorem string [DecidableEq I] (v : Bool) (s : List I) : Parses (σ := σ) (Parsers.string v s) (@Parsers.string Build.debug _ _ _ v s) := by
  intro i
  have h : (Parsers.string v s i : M σ _) = @Parsers.string Build.debug _ _ _ v s i := by
    unfold Parsers.string
    by_cases h : s.length > i.buf.length
    · have hl : i.buf.length ≤ s.length := by omega
      simp only [if_pos h, usub, if_pos hl]
    · simp only [if_neg h]
  rw [h]
  exact string_debug v s i

open Http

omit [Build] in
theorem endOfLine (v : Bool) : Parses (σ := σ) (Http.endOfLine v) (Http.endOfLine v) :=
  orP (andThenP (token _ _) (andThenP (token _ _) (ret _))) (token _ _)

theorem httpVersion (v : Bool) : Parses (σ := σ) (Http.httpVersion v) (@Http.httpVersion Build.debug _ v) :=
  andThenP (string _ _) (takeWhile1 _ _)

theorem requestLine (v : Bool) : Parses (σ := σ) (Http.requestLine v) (@Http.requestLine Build.debug _ v) :=
  bindP (takeWhile1 _ _) fun _ => andThenP (takeWhile1 _ _) <| bindP (takeWhile1 _ _) fun _ => andThenP (takeWhile1 _ _) <|
    bindP (httpVersion _) fun _ => ret _

omit [Build] in
theorem messageHeaderLine (v : Bool) : Parses (σ := σ) (Http.messageHeaderLine v) (Http.messageHeaderLine v) :=
  andThenP (takeWhile1 _ _) <| bindP (takeTill _) fun _ => andThenP (endOfLine _) (ret _)

theorem messageHeader (v : Bool) : Parses (σ := σ) (Http.messageHeader v) (@Http.messageHeader Build.debug _ v) :=
  bindP (takeWhile1 _ _) fun _ => andThenP (token _ _) <| bindP (many1 _ (messageHeaderLine _)) fun _ => ret _

theorem request (v : Bool) : Parses (σ := σ) (Http.request v) (@Http.request Build.debug _ v) :=
  bindP (requestLine _) fun _ => andThenP (endOfLine _) <| bindP (many _ (messageHeader _)) fun _ =>
    andThenP (endOfLine _) (ret _)

omit [Build] in
theorem source_parse {S B : Type} [DataSource S I] [Buffer B I] (chk : Bool) {p : Parser σ I T E} {q : Parser Unit I T E} (h : Parses p q)
    (s : Source S B) : Same (s.parse chk p) (s.parse chk q) := by
  unfold Source.parse
  dsimp only
  split
  all_goals
    refine bind (by first | exact lift _ | exact pure _) fun r => ?_
    obtain ⟨r, s⟩ := r
    cases r with
    | error e => exact pure _
    | ok n =>
      refine bind (lift _) fun b => ?_
      split
      · exact pure _
      · refine bind (lift _) fun b => bind (h _) fun r => ?_
        cases r with
        | data r d => exact bind (lift _) fun _ => bind (lift _) fun _ => bind (lift _) fun _ => pure _
        | error r e => exact bind (lift _) fun _ => bind (lift _) fun _ => bind (lift _) fun _ => pure _
        | incomplete n =>
          refine bind (lift _) fun _ => bind (lift _) fun _ => ?_
          dsimp only
          split
          · exact pure _
          · exact pure _

theorem main {R : Type} [DataSource R UInt8] (chk v : Bool) (file : R) :
    Same (σ := σ) (Http.main chk v file) (@Http.main Build.debug _ _ _ chk v file) := by
  refine bind (lift _) fun i => loop (fun x => bind (source_parse chk (request v) _) fun r => ?_) _
  obtain ⟨r, s⟩ := r
  dsimp only
  split
  · exact bind (lift _) fun _ => pure _
  · exact pure _
  · exact pure _
  · exact panic

end Same

end Chomp
