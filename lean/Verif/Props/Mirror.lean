import Verif.Lemmas.Mirror
import Verif.Props.Closures
import Verif.Props.Retry

/-
C94: parsers see items only through the closures and comparisons they are given.
-/

namespace Chomp.Props

open Spec

section
variable {R : I → J → Prop} {V : T → T' → Prop} {W : E → E' → Prop}

/-- Parsers written down in the same way, with closures, comparisons and collections which do the same on related
items, do the same on related input. -/
theorem C94_mirrors {p : Parser σ I T E} {q : Parser σ J T' E'} (h : Mirrors R V W p q) : Mirror R V W p q :=
  h.mirrors

/-- So `parse_only` returns the same. -/
theorem C94_parse_only {p : Parser σ I T E} {q : Parser σ J T' E'} (h : Mirrors R V W p q) (s : List I)
    (t : List J) (hs : Slices R s t) (w : σ) : Both (Onlys R V W) (parseOnly p s w) (parseOnly q t w) := by
  refine Twins.BothM.bind (fun w => h.mirrors ⟨.endOfInput, s⟩ ⟨.endOfInput, t⟩ w ⟨rfl, hs⟩) ?_ w
  intro r r' hr
  cases hr with
  | data _ ht => exact .pure (.ok ht)
  | error hb he => exact .pure (.error hb he)
  | incomplete => exact .pure .incomplete

/-- And so does `parse` on a slice stream, which it leaves at the same position. -/
theorem C94_slice (chk : Bool) {p : Parser σ I T E} {q : Parser σ J T' E'} (h : Mirrors R V W p q)
    (s : SliceStream I) (t : SliceStream J) (hs : Streams R s t) (w : σ) :
    Both (Pairs (Replies (Slices R) V W) (Streams R)) (s.parse chk p w) (t.parse chk q w) := by
  obtain ⟨pos, s⟩ := s
  obtain ⟨_, t⟩ := t
  obtain ⟨rfl, hs⟩ := hs
  dsimp only at hs
  have hl := hs.length
  revert w
  show Twins.BothM _ _ _
  unfold SliceStream.parse SliceStream.isEmpty SliceStream.len
  dsimp only
  rw [hl]
  refine .seq _ fun b => ?_
  split
  · exact .pure ⟨.endOfInput, rfl, hs⟩
  · refine (Mirror.sliceFrom hs pos).bind fun s' t' hs' => ?_
    refine Twins.BothM.bind (fun w => h.mirrors ⟨.endOfInput, s'⟩ ⟨.endOfInput, t'⟩ w ⟨rfl, hs'⟩) ?_
    intro r r' hr
    cases hr with
    | data hi ht =>
      dsimp only
      rw [hi.buf.length]
      exact .seq _ fun _ => .seq _ fun _ => .seq _ fun _ => .pure ⟨.ok ht, rfl, hs⟩
    | error hb he =>
      dsimp only
      rw [hb.length]
      exact .seq _ fun _ => .seq _ fun _ => .seq _ fun _ => .pure ⟨.parseError hb he, rfl, hs⟩
    | incomplete => exact .seq _ fun _ => .seq _ fun _ => .pure ⟨.incomplete, rfl, hs⟩

/-- And so does the retry loop around two sources, however they cut the data, with whatever buffers; what is ahead
afterwards is related again. -/
theorem C94_source {S B S' B' : Type} [DataSource S I] [HonestSource S I] [Buffer B I] [LawfulBuffer B I]
    [DataSource S' J] [HonestSource S' J] [Buffer B' J] [LawfulBuffer B' J]
    {rem : S → List I} {errs : S → Nat} (hd : Delivers S rem errs)
    {rem' : S' → List J} {errs' : S' → Nat} (hd' : Delivers S' rem' errs') (chk chk' : Bool)
    {p : Parser Unit I T E} {q : Parser Unit J T' E'} (hp : Built streaming p) (hq : Built streaming q)
    (hpq : Mirrors R V W p q) (s : Source S B) (s' : Source S' B')
    (h : Ready rem s) (h' : Ready rem' s') (hs : Slices R (ahead rem s) (ahead rem' s'))
    (hne : ahead rem s ≠ []) (hfit : Fits p s.buffer (ahead rem s)) (hfit' : Fits q s'.buffer (ahead rem' s')) :
    (∃ r t r' t', retry chk p s () = .ok ((r, t), ()) ∧ retry chk' q s' () = .ok ((r', t'), ()) ∧
      Replies (fun _ _ => True) V W r r' ∧ Slices R (ahead rem t) (ahead rem' t') ∧
      Ready rem t ∧ Ready rem' t') ∨
    (retry chk p s () = .panic ∧ retry chk' q s' () = .panic) ∨
    (retry chk p s () = .ub ∧ retry chk' q s' () = .ub) ∨
    (retry chk p s () = .div ∧ retry chk' q s' () = .div) := by
  have hne' : ahead rem' s' ≠ [] := by
    intro e
    rw [e] at hs
    exact hne (List.length_eq_zero_iff.1 hs.length)
  have a := C51_retry hd chk hp s h hne hfit
  have b := C51_retry hd' chk' hq s' h' hne' hfit'
  have c := hpq.mirrors ⟨.endOfInput, ahead rem s⟩ ⟨.endOfInput, ahead rem' s'⟩ () ⟨rfl, hs⟩
  revert a b c
  generalize p _ _ = x
  generalize q _ _ = y
  intro a b c
  cases c with
  | ok r r' _ hr =>
    cases hr with
    | data hi ht =>
      obtain ⟨t1, a1, a2, a3⟩ := a
      obtain ⟨t2, b1, b2, b3⟩ := b
      exact .inl ⟨_, _, _, _, a1, b1, .ok ht, by rw [a2, b2]; exact hi.buf, a3.1, b3.1⟩
    | error hb he =>
      obtain ⟨t1, a1, a2, a3⟩ := a
      obtain ⟨t2, b1, b2, b3⟩ := b
      exact .inl ⟨_, _, _, _, a1, b1, .parseError trivial he, by rw [a2, b2]; exact hb, a3.1, b3.1⟩
    | incomplete =>
      obtain ⟨t1, a1, a2, a3⟩ := a
      obtain ⟨t2, b1, b2, b3⟩ := b
      exact .inl ⟨_, _, _, _, a1, b1, by rw [hs.length]; exact .incomplete, by rw [a2, b2]; exact hs, a3.1, b3.1⟩
  | panic => exact .inr (.inl ⟨a, b⟩)
  | ub => exact .inr (.inr (.inl ⟨a, b⟩))
  | div => exact .inr (.inr (.inr ⟨a, b⟩))

end

/-! ### Translated items -/

/-- Slices, and errors, about items and their translations. -/
theorem C94_graph (f : J → I) :
    (∀ s t, Slices (fun c d => c = f d) s t ↔ s = t.map f) ∧
    (∀ e e', Errors (fun c d => c = f d) e e' ↔ e = renameError f e') := by
  have hs : ∀ s t, Slices (fun c d => c = f d) s t ↔ s = t.map f := by
    intro s t
    constructor
    · intro h
      induction h with
      | nil => rfl
      | cons h1 _ ih => rw [h1, ih]; rfl
    · rintro rfl
      induction t with
      | nil => exact .nil
      | cons d t ih => exact .cons rfl ih
  refine ⟨hs, fun e e' => ⟨?_, ?_⟩⟩
  · intro h
    cases h with
    | expected h => rw [h]; rfl
    | unexpected => rfl
    | string h => rw [(hs _ _).1 h]; rfl
    | generic => rfl
  · rintro rfl
    cases e' with
    | expected c => exact .expected rfl
    | unexpected => exact .unexpected
    | string s => exact .string ((hs _ _).2 rfl)
    | generic => exact .generic

/-- Translating the items before parsing is translating the outcome afterwards. -/
theorem C94_renamed (f : J → I) (g : T' → T) (h : E' → E) {p : Parser σ I T E} {q : Parser σ J T' E'}
    (hpq : Mirrors (fun c d => c = f d) (fun t t' => t = g t') (fun e e' => e = h e') p q) (m : Mode) (xs : List J)
    (w : σ) : p ⟨m, xs.map f⟩ w = rename f g h (q ⟨m, xs⟩ w) := by
  have := hpq.mirrors ⟨m, xs.map f⟩ ⟨m, xs⟩ w ⟨rfl, ((C94_graph f).1 _ _).2 rfl⟩
  revert this
  generalize p _ _ = x
  generalize q _ _ = y
  intro this
  cases this with
  | ok r r' w hr =>
    cases hr with
    | data hi ht =>
      rename_i i j t t'
      obtain ⟨m', b⟩ := i
      obtain ⟨hm, hb⟩ := hi
      dsimp only at hm hb
      rw [((C94_graph f).1 _ _).1 hb, hm, ht]
      rfl
    | error hb he => rw [((C94_graph f).1 _ _).1 hb, he]; rfl
    | incomplete => rfl
  | panic => rfl
  | ub => rfl
  | div => rfl

/-- Items with their positions: a parser which does the same with the items as another one does with items and
positions gives the same on items without positions. -/
theorem C94_positions (g : T' → T) (h : E' → E) {p : Parser σ I T E} {q : Parser σ (I × Nat) T' E'}
    (hpq : Mirrors (fun c d => c = d.1) (fun t t' => t = g t') (fun e e' => e = h e') p q) (m : Mode) (xs : List I)
    (n : Nat) (w : σ) : p ⟨m, xs⟩ w = rename Prod.fst g h (q ⟨m, xs.zipIdx n⟩ w) := by
  have := C94_renamed Prod.fst g h hpq m (xs.zipIdx n) w
  rwa [List.zipIdx_map_fst] at this

/-! ### Collections and pure closures -/

/-- Collections which go on, stop and finish in the same cases, with related accumulators. -/
theorem C94_collection {V : U → U' → Prop} {X : T → T' → Prop} (c : Collect U T) (c' : Collect U' T')
    (S : c.Acc → c'.Acc → Prop) (hs : Sums S X c.start c'.start)
    (hf : ∀ a b u u', S a b → V u u' → Sums S X (c.feed a u) (c'.feed b u'))
    (he : ∀ a b, S a b → X (c.finish a) (c'.finish b)) : SameCollection (σ := σ) V X c.driver c'.driver :=
  Mirror.collect c c' S hs hf he

/-- `Vec`, with memory for any number of items or not, and `Option<Vec<_>>`. -/
theorem C94_vec (V : U → U' → Prop) (minCap room : Nat) :
    SameCollection (σ := σ) V (Slices V) (Collect.vec U).driver (Collect.vec U').driver ∧
    SameCollection (σ := σ) V (Slices V) (Driver.vec minCap room) (Driver.vec minCap room) ∧
    SameCollection (σ := σ) (Options V) (Options (Slices V)) (Collect.optionVec U).driver
      (Collect.optionVec U').driver := by
  refine ⟨?_, Mirror.vec _ _, ?_⟩
  · exact C94_collection _ _ (Slices V) (.inl .nil) (fun _ _ _ _ ha hu => .inl (.cons hu ha))
      fun _ _ ha => ha.reverse
  · refine C94_collection _ _ (Slices V) (.inl .nil) (fun _ _ _ _ ha hu => ?_) fun _ _ ha => .some ha.reverse
    cases hu with
    | none => exact .inr .none
    | some hu => exact .inl (.cons hu ha)

/-- The combinators of `src/combinators/mod.rs` which are bounded ones with a certain range. -/
theorem C94_named {R : I → J → Prop} {V : U → U' → Prop} {W : E → E' → Prop} {X : T → T' → Prop}
    {Y : A → A' → Prop} {Z : N → N' → Prop} {c : Collect U T} {c' : Collect U' T'}
    (hc : SameCollection (σ := σ) V X c.driver c'.driver) {p : Parser σ I U E} {q : Parser σ J U' E'}
    (hp : Mirrors R V W p q) {end_ : Parser σ I A N} {end' : Parser σ J A' N'} (he : Mirrors R Y Z end_ end')
    (n : Nat) :
    Mirrors R X W (Comb.count n c p) (Comb.count n c' q) ∧
    Mirrors R X W (Comb.many c p) (Comb.many c' q) ∧
    Mirrors R X W (Comb.many1 c p) (Comb.many1 c' q) ∧
    Mirrors R X W (Comb.manyTill c p end_) (Comb.manyTill c' q end') ∧
    Mirrors R Eq W (Comb.skipMany p) (Comb.skipMany q) ∧
    Mirrors R Eq W (Comb.skipMany1 p) (Comb.skipMany1 q) :=
  ⟨.many (.exactly n) hc hp, .many .full hc hp, .many (.from_ 1) hc hp, .manyTill .full hc hp he,
    .skipMany .full hp, .skipMany (.from_ 1) hp⟩

/-- The parsers of `src/parsers.rs` with pure closures. -/
theorem C94_pure (R : I → J → Prop) (v : Bool) :
    (∀ (f : I → Bool) (g : J → Bool), (∀ c d, R c d → f c = g d) →
      Mirrors R R (Errors R) (Parsers.satisfy (σ := σ) v f) (Parsers.satisfy v g) ∧
      Mirrors R (Slices R) (Errors R) (Parsers.takeWhile (σ := σ) f) (Parsers.takeWhile g) ∧
      Mirrors R (Slices R) (Errors R) (Parsers.takeWhile1 (σ := σ) v f) (Parsers.takeWhile1 v g) ∧
      Mirrors R (Slices R) (Errors R) (Parsers.takeTill (σ := σ) f) (Parsers.takeTill g)) ∧
    (∀ (T T' : Type) (V : T → T' → Prop) (f : I → T) (g : J → T') (p : T → Bool) (q : T' → Bool),
      (∀ c d, R c d → V (f c) (g d)) → (∀ t t', V t t' → p t = q t') →
      Mirrors R V (Errors R) (Parsers.satisfyWith (σ := σ) v f p) (Parsers.satisfyWith v g q)) ∧
    (∀ (A B : Type) (S : A → B → Prop) (f : A → I → Option A) (g : B → J → Option B) (a : A) (b : B),
      (∀ a b c d, S a b → R c d → Options S (f a c) (g b d)) → S a b →
      Mirrors R (Slices R) (Errors R) (Parsers.scan (σ := σ) a f) (Parsers.scan b g) ∧
      Mirrors R (Pairs (Slices R) S) (Errors R) (Parsers.runScanner (σ := σ) a f) (Parsers.runScanner b g)) := by
  refine ⟨fun f g h => ?_, fun T T' V f g p q hf hp => ?_, fun A B S f g a b h hab => ?_⟩
  · have pf : Same (σ := σ) R Eq (fun c => pure (f c)) (fun c => pure (g c)) :=
      fun c d w hc => .ok _ _ _ (h c d hc)
    rw [← Closures.satisfy_pure, ← Closures.satisfy_pure, ← Closures.takeWhile_pure, ← Closures.takeWhile_pure,
      ← Closures.takeWhile1_pure, ← Closures.takeWhile1_pure, ← Closures.takeTill_pure, ← Closures.takeTill_pure]
    exact ⟨.satisfy v pf, .takeWhile pf, .takeWhile1 v pf, .takeTill pf⟩
  · rw [← Closures.satisfyWith_pure, ← Closures.satisfyWith_pure]
    exact .satisfyWith v (fun c d w hc => .ok _ _ _ (hf c d hc)) fun t t' w ht => .ok _ _ _ (hp t t' ht)
  · rw [← Closures.scanner_pure, ← Closures.scanner_pure, ← Closures.runScanner_pure, ← Closures.runScanner_pure]
    exact ⟨.scan hab fun a b hab c d w hc => .ok _ _ _ (h a b c d hab hc),
      .runScanner hab fun a b hab c d w hc => .ok _ _ _ (h a b c d hab hc)⟩

/-- Those which compare items, with an equality which agrees on related items; the items which are expected are
related too. -/
theorem C94_equality [DecidableEq I] [DecidableEq J] (R : I → J → Prop) (v : Bool) :
    (∀ t t', R t t' → (∀ c d, R c d → (t = c ↔ t' = d)) →
      Mirrors R R (Errors R) (Parsers.token (σ := σ) v t) (Parsers.token v t') ∧
      Mirrors R R (Errors R) (Parsers.notToken (σ := σ) v t) (Parsers.notToken v t')) ∧
    (∀ s s', Slices R s s' → (∀ a b c d, R a b → R c d → (a = c ↔ b = d)) →
      Mirrors R (Slices R) (Errors R) (Parsers.string (σ := σ) v s) (Parsers.string v s')) := by
  have ne : ∀ {a : I} {b : J}, (∀ c d, R c d → (a = c ↔ b = d)) →
      Same (σ := σ) R Eq (fun c => pure (a != c)) (fun c => pure (b != c)) := fun h c d w hc =>
    .ok _ _ _ (by have := h c d hc; rw [Bool.eq_iff_iff, bne_iff_ne, bne_iff_ne, ne_eq, ne_eq, this])
  refine ⟨fun t t' ht h => ?_, fun s s' hs h => ?_⟩
  · rw [← Closures.token_pure, ← Closures.token_pure, ← Closures.notToken_pure, ← Closures.notToken_pure]
    refine ⟨.token v ht fun c d w hc => .ok _ _ _ ?_, .notToken v (ne h)⟩
    rw [Bool.eq_iff_iff, beq_iff_eq, beq_iff_eq]
    exact h c d hc
  · rw [← Closures.string_pure, ← Closures.string_pure]
    refine .string v hs ?_
    induction hs with
    | nil => exact .nil
    | cons h1 _ ih => exact .cons (ne fun c d => h _ _ c d h1) ih

/-! ### Examples -/

namespace MirrorExample

/-- A word, then a full stop. -/
def word : Parser Unit Char (List Char) (Error Char) :=
  Parser.bind id (Closures.takeWhile1 true (fun c => pure (c != '.')))
    fun w => Parser.map (Closures.token (fun a c => pure (a == c)) true '.') fun _ => w

/-- The same on items with positions: positions are ignored in comparisons, as in an implementation of `PartialEq`
which does so. -/
def placed : Parser Unit (Char × Nat) (List (Char × Nat)) (Error (Char × Nat)) :=
  Parser.bind id (Closures.takeWhile1 true (fun c => pure (c.1 != '.')))
    fun w => Parser.map (Closures.token (fun a c => pure (a.1 == c.1)) true ('.', 0)) fun _ => w

theorem word_placed : Mirrors (fun c d => c = d.1) (fun t t' => t = t'.map Prod.fst)
    (fun e e' => e = renameError Prod.fst e') word placed := by
  refine .weaken (V := Slices fun c d => c = d.1) (W := Errors fun c d => c = d.1)
    (.bind (V := Slices fun c d => c = d.1) ?_ (fun _ _ h => h) ?_)
    (fun t t' => ((C94_graph Prod.fst).1 t t').1) (fun e e' => ((C94_graph Prod.fst).2 e e').1)
  · exact .takeWhile1 true fun c d w h => by subst h; exact .ok _ _ _ rfl
  · intro t t' ht
    exact .map (.token true rfl fun c d w h => by subst h; exact .ok _ _ _ rfl) fun _ _ _ => ht

-- a word, and where its characters are
example : placed ⟨.default, ['h', 'i', '.', 'x'].zipIdx 7⟩ () =
    .ok (.data ⟨.default, [('x', 10)]⟩ [('h', 7), ('i', 8)], ()) := rfl

example : word ⟨.default, ['h', 'i', '.', 'x']⟩ () = .ok (.data ⟨.default, ['x']⟩ ['h', 'i'], ()) :=
  C94_positions (List.map Prod.fst) (renameError Prod.fst) word_placed .default ['h', 'i', '.', 'x'] 7 ()

-- for input of any length, and in failure
example (xs : List Char) : word ⟨.endOfInput, xs⟩ () =
    rename Prod.fst (List.map Prod.fst) (renameError Prod.fst) (placed ⟨.endOfInput, xs.zipIdx⟩ ()) :=
  C94_positions _ _ word_placed .endOfInput xs 0 ()

example : placed ⟨.endOfInput, [('.', 3)]⟩ () = .ok (.error [('.', 3)] .unexpected, ()) := rfl

/-- Items which are treated alike: all but the full stop. -/
abbrev Alike (c d : Char) : Prop := c = '.' ↔ d = '.'

theorem word_alike : Mirrors Alike (Slices Alike) (Errors Alike) word word := by
  refine .bind (V := Slices Alike) (.takeWhile1 true fun c d w h => .ok _ _ _ ?_) (fun _ _ h => h) fun t t' ht =>
    .map (.token true .rfl fun c d w h => .ok _ _ _ ?_) fun _ _ _ => ht
  · have : c = '.' ↔ d = '.' := h
    rw [Bool.eq_iff_iff, bne_iff_ne, bne_iff_ne, ne_eq, ne_eq, this]
  · have : c = '.' ↔ d = '.' := h
    rw [Bool.eq_iff_iff, beq_iff_eq, beq_iff_eq, @eq_comm _ '.', this, eq_comm]

-- so a word of as many letters is matched
example : ∃ t, parseOnly word ['x', 'y', 'z', '.', '.'] () = .ok (.ok t, ()) ∧ t.length = 3 := by
  have h := C94_parse_only word_alike ['a', 'b', 'c', '.', '.'] ['x', 'y', 'z', '.', '.']
    (.cons (by decide) (.cons (by decide) (.cons (by decide) (.cons .rfl (.cons .rfl .nil))))) ()
  rw [show parseOnly word ['a', 'b', 'c', '.', '.'] () = .ok (.ok ['a', 'b', 'c'], ()) from rfl] at h
  cases h with
  | ok a b w h =>
    cases h with
    | ok h => exact ⟨_, rfl, h.length.symm⟩

-- all words of a text, with their places
example : Mirrors (fun c d => c = d.1) (Slices fun t t' => t = t'.map Prod.fst)
    (fun e e' => e = renameError Prod.fst e') (Comb.many (Collect.vec _) word) (Comb.many (Collect.vec _) placed) :=
  (C94_named (C94_vec _ 0 0).1 word_placed (.ret (V := Eq) (W := Eq) (E := Unit) (rfl : () = ())) 0).2.1

-- on slice streams
example (chk : Bool) (xs : List Char) (n : Nat) : Both
    (Pairs (Replies (Slices fun c d => c = d.1) (fun t t' => t = t'.map Prod.fst)
      (fun e e' => e = renameError Prod.fst e')) (Streams fun c d => c = d.1))
    ((SliceStream.new xs).parse chk word ()) ((SliceStream.new (xs.zipIdx n)).parse chk placed ()) :=
  C94_slice chk word_placed _ _ ⟨rfl, ((C94_graph Prod.fst).1 _ _).2 (List.zipIdx_map_fst n xs).symm⟩ ()

/-- `take_while1` on characters, and on characters with something attached. -/
theorem letters : Mirrors (fun c (d : Char × Nat) => c = d.1) (Slices fun c d => c = d.1) (Errors fun c d => c = d.1)
    (Parsers.takeWhile1 (σ := Unit) true (· != '.')) (Parsers.takeWhile1 true fun d : Char × Nat => d.1 != '.') :=
  (((C94_pure (fun c (d : Char × Nat) => c = d.1) true).1 (· != '.') (fun d => d.1 != '.')) fun c d h => by rw [h]).2.2.1

-- on sources which cut the data in different ways
example (chk chk' : Bool) (extra extra' : Nat → Nat) :
    let s : Script Char := ⟨[.data 'a' ['b'], .err ⟨1⟩, .data '.' []]⟩
    let s' : Script (Char × Nat) := ⟨[.data ('a', 5) [], .data ('b', 6) [('.', 7)]]⟩
    ∃ r t r' t', retry chk (Parsers.takeWhile1 true (· != '.'))
        (Source.withBuffer s (GrowingBuffer.withLimit extra 0 : GrowingBuffer Char)) () = .ok ((r, t), ()) ∧
      retry chk' (Parsers.takeWhile1 true (·.1 != '.'))
        (Source.withBuffer s' (GrowingBuffer.withLimit extra' 0 : GrowingBuffer (Char × Nat))) () =
          .ok ((r', t'), ()) ∧
      Replies (fun _ _ => True) (Slices fun c d => c = d.1) (Errors fun c d => c = d.1) r r' := by
  intro s s'
  have hp : Built ⟨false, true, some 0⟩ (Parsers.takeWhile1 (σ := Unit) true (· != '.')) := .takeWhile1 _ _
  have hq : Built ⟨false, true, some 0⟩
    (Parsers.takeWhile1 (σ := Unit) (I := Char × Nat) true (·.1 != '.')) := .takeWhile1 _ _
  have r := C51_new Script.rem s (GrowingBuffer.withLimit extra 0 : GrowingBuffer Char)
    (GrowingBuffer.withLimit_inv _ _) ⟨rfl, by decide⟩
  have r' := C51_new Script.rem s' (GrowingBuffer.withLimit extra' 0 : GrowingBuffer (Char × Nat))
    (GrowingBuffer.withLimit_inv _ _) ⟨rfl, by decide⟩
  have e : ahead Script.rem (Source.withBuffer s (GrowingBuffer.withLimit extra 0 : GrowingBuffer Char)) =
    ['a', 'b', '.'] := r.2
  have e' : ahead Script.rem (Source.withBuffer s' (GrowingBuffer.withLimit extra' 0 : GrowingBuffer (Char × Nat))) =
    [('a', 5), ('b', 6), ('.', 7)] := r'.2
  have f : Fits (Parsers.takeWhile1 (σ := Unit) true (· != '.')) (GrowingBuffer.withLimit extra 0 : GrowingBuffer Char)
    ['a', 'b', '.'] := C51_fits hp _ _ ⟨rfl, by decide⟩ (by decide)
  have f' : Fits (Parsers.takeWhile1 (σ := Unit) (I := Char × Nat) true (·.1 != '.'))
    (GrowingBuffer.withLimit extra' 0 : GrowingBuffer (Char × Nat))
    [('a', 5), ('b', 6), ('.', 7)] := C51_fits hq _ _ ⟨rfl, by decide⟩ (by decide)
  have a := C51_retry Script.delivers chk (hp.streamed rfl) _ r.1 (by rw [e]; nofun) (by rw [e]; exact f)
  rw [e] at a
  obtain ⟨s1, a1, _⟩ := a
  obtain ⟨r1, t, r2, t', h1, h2, h3, _⟩ | h | h | h := C94_source Script.delivers Script.delivers chk chk'
    (hp.streamed rfl) (hq.streamed rfl) letters _ _ r.1 r'.1
    (by rw [e, e']; exact .cons rfl (.cons rfl (.cons rfl .nil))) (by rw [e]; nofun)
    (by rw [e]; exact f) (by rw [e']; exact f')
  · exact ⟨r1, t, r2, t', h1, h2, h3⟩
  · cases a1.symm.trans h.1
  · cases a1.symm.trans h.1
  · cases a1.symm.trans h.1

end MirrorExample

end Chomp.Props
