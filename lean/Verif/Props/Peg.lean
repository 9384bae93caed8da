import Verif.Lemmas.Peg
import Verif.Props.Monad
import Verif.Props.Recursive

/-
C92: parsers and parsing expression grammars. `Shows p e` says that `p` is written like the expression `e`;
`Matches G e x o` is the meaning of `e` in the grammar `G` (Verif/Spec/Peg.lean).
-/

namespace Chomp.Props

open Spec Spec.Peg

variable {K : Type} {σ I : Type} {T E : K → Type}

/-- An expression has at most one outcome, and what is left is an end of the input. -/
theorem C92_deterministic (G : K → Peg K I) (e : Peg K I) (x : List I) (o o' : Option (List I))
    (h : Matches G e x o) (h' : Matches G e x o') :
    o = o' ∧ ∀ y, o = some y → ∃ z, x = z ++ y :=
  ⟨Peg.matches_det G e _ _ _ h h', fun y e' => Peg.matches_ends G e x y (e' ▸ h)⟩

/-- The parser succeeds and leaves `y` if and only if the expression succeeds and leaves `y`. -/
theorem C92_success (G : K → Peg K I) (F : Fns σ I T E → Fns σ I T E)
    (hF : ∀ k, Shows (fun q => F q k) (G k)) (p : Fns σ I T E) (hp : Means F p) {T' E' : Type}
    (x : Fns σ I T E → Parser σ I T' E') (e : Peg K I) (hx : Shows x e) (b y : List I) (w : σ) :
    (∃ t w', x p ⟨.endOfInput, b⟩ w = .ok (.data ⟨.endOfInput, y⟩ t, w')) ↔ Matches G e b (some y) := by
  have h := Peg.shows_matches hF hp hx
  exact ⟨fun ⟨_, _, h'⟩ => (h.of_data h').2, fun h' => h.data (Peg.matches_det G e) h' w⟩

/-- It fails, with an error or incomplete, if and only if the expression fails. -/
theorem C92_failure (G : K → Peg K I) (F : Fns σ I T E → Fns σ I T E)
    (hF : ∀ k, Shows (fun q => F q k) (G k)) (p : Fns σ I T E) (hp : Means F p) {T' E' : Type}
    (x : Fns σ I T E → Parser σ I T' E') (e : Peg K I) (hx : Shows x e) (b : List I) (w : σ) :
    ((∃ r e w', x p ⟨.endOfInput, b⟩ w = .ok (.error r e, w')) ∨
      ∃ n w', x p ⟨.endOfInput, b⟩ w = .ok (.incomplete n, w')) ↔ Matches G e b none := by
  have h := Peg.shows_matches hF hp hx
  refine ⟨?_, fun h' => h.fail (Peg.matches_det G e) h' w⟩
  rintro (⟨_, _, _, h'⟩ | ⟨_, _, h'⟩)
  · exact h.of_error h'
  · exact h.of_incomplete h'

/-- It does not return if and only if the expression neither succeeds nor fails. -/
theorem C92_endless (G : K → Peg K I) (F : Fns σ I T E → Fns σ I T E)
    (hF : ∀ k, Shows (fun q => F q k) (G k)) (p : Fns σ I T E) (hp : Means F p) {T' E' : Type}
    (x : Fns σ I T E → Parser σ I T' E') (e : Peg K I) (hx : Shows x e) (b : List I) (w : σ) :
    x p ⟨.endOfInput, b⟩ w = .div ↔ ∀ o, ¬ Matches G e b o := by
  have h := Peg.shows_matches hF hp hx
  refine ⟨fun h' => h.of_div h', fun h' => ?_⟩
  have := h b w
  generalize x p ⟨.endOfInput, b⟩ w = r at this
  cases this with
  | data h => exact absurd h (h' _)
  | error h => exact absurd h (h' _)
  | incomplete h => exact absurd h (h' _)
  | div h => rfl

/-- There is nothing else it may do. -/
theorem C92_safe (G : K → Peg K I) (F : Fns σ I T E → Fns σ I T E)
    (hF : ∀ k, Shows (fun q => F q k) (G k)) (p : Fns σ I T E) (hp : Means F p) {T' E' : Type}
    (x : Fns σ I T E → Parser σ I T' E') (e : Peg K I) (hx : Shows x e) (b : List I) (w : σ) :
    x p ⟨.endOfInput, b⟩ w ≠ .panic ∧ x p ⟨.endOfInput, b⟩ w ≠ .ub :=
  ⟨(Peg.shows_matches hF hp hx).not_panic, (Peg.shows_matches hF hp hx).not_ub⟩

/-- `parse_only` gives a value if and only if the expression matches a beginning of the slice. -/
theorem C92_parse_only (G : K → Peg K I) (F : Fns σ I T E → Fns σ I T E)
    (hF : ∀ k, Shows (fun q => F q k) (G k)) (p : Fns σ I T E) (hp : Means F p) {T' E' : Type}
    (x : Fns σ I T E → Parser σ I T' E') (e : Peg K I) (hx : Shows x e) (b : List I) (w : σ) :
    (∃ t w', parseOnly (x p) b w = .ok (.ok t, w')) ↔ ∃ y, Matches G e b (some y) := by
  have h := Peg.shows_matches hF hp hx
  constructor
  · rintro ⟨t, w', h'⟩
    obtain ⟨rest, h'⟩ := (C10_parse_only_ok _ _ _ _ _).mp h'
    exact ⟨_, (h.of_data h').2⟩
  · rintro ⟨y, h'⟩
    obtain ⟨t, w', h'⟩ := h.data (Peg.matches_det G e) h' w
    exact ⟨t, w', (C10_parse_only_ok _ _ _ _ _).mpr ⟨_, h'⟩⟩

/-- On a slice which is not the last one, a success is one for every continuation of the input, and so is an
error a failure. -/
theorem C92_streaming (G : K → Peg K I) (F : Fns σ I T E → Fns σ I T E)
    (hF : ∀ k, Shows (fun q => F q k) (G k)) (hB : ∀ k, Body streaming (fun q => F q k)) (p : Fns σ I T E)
    (hp : Means F p) (k : K) (b rest : List I) (w w' : σ) :
    (∀ r t, p k ⟨.default, b⟩ w = .ok (.data r t, w') →
      Matches G (.call k) (b ++ rest) (some (r.buf ++ rest))) ∧
    (∀ r e, p k ⟨.default, b⟩ w = .ok (.error r e, w') → Matches G (.call k) (b ++ rest) none) := by
  have hs := C90_stable F hB p hp k b rest .endOfInput w w'
  have h := Peg.means_acc hF hp k
  exact ⟨fun r t h' => (h.of_data (hs.1 r t h').2).2, fun r e h' => h.of_error (hs.2 r e h')⟩

/-- `decimal` is written like `[0-9] [0-9]*`, if the operations of the type of the number return. -/
theorem C92_decimal (v : Bool) (N : Ascii.Num T') (ht : Total N) (hc : Computes N) :
    Shows (K := K) (σ := σ) (I := UInt8) (T := T) (E := E) (fun _ => Ascii.decimal v N)
      (.seq (.item fun c => decide (48 ≤ c ∧ c ≤ 57)) (.star (.item fun c => decide (48 ≤ c ∧ c ≤ 57)))) := by
  have e : (fun c : UInt8 => decide (48 ≤ c ∧ c ≤ 57)) = Ascii.isDigit := by
    funext c
    simp [Ascii.isDigit]
  rw [e]
  rw [show (fun _ : Fns σ UInt8 T E => (Ascii.decimal v N : Parser σ UInt8 T' (Error UInt8))) = fun _ => _ from
    funext fun _ => Peg.decimal_eq v N]
  exact .mapM _ (Peg.digits_returns ht hc) (.takeWhile1 v _)

/-- `signed(p)` is written like `[-+]? p`. -/
theorem C92_signed (v : Bool) (N : Ascii.Num T') (ht : Total N) (hc : Computes N)
    (p : Fns σ UInt8 T E → Parser σ UInt8 T' (Error UInt8)) (e : Peg K UInt8) (hp : Shows p e) :
    Shows (fun q => Ascii.signed v N (p q)) (.seq (.opt (.item fun c => decide (c = 45 ∨ c = 43))) e) := by
  have h : (fun c : UInt8 => decide (c = 45 ∨ c = 43)) = fun c => c == 45 || c == 43 := by
    funext c
    rw [Bool.decide_or]
    rfl
  rw [h]
  refine .bind (.option _ (.map _ (.satisfy v _))) fun sign => .mapM (fun num => M.lift (N.mul sign num)) ?_ hp
  intro t w
  have h1 := ht.2 sign t
  have h2 := hc.2 sign t
  cases hr : N.mul sign t with
  | ok x => exact ⟨x, w, rfl⟩
  | panic => exact absurd hr h1
  | ub => exact absurd hr h2.2
  | div => exact absurd hr h2.1

/-- Every grammar can be written with the library. -/
theorem C92_expressible (G : K → Peg K I) :
    ∃ F : Fns σ I (fun _ : K => Unit) (fun _ => Error I) → Fns σ I (fun _ : K => Unit) (fun _ => Error I),
      (∀ a k, Body a (fun q => F q k)) ∧ ∀ p, Means F p → ∀ k b w,
        (∀ y, (∃ w', p k ⟨.endOfInput, b⟩ w = .ok (.data ⟨.endOfInput, y⟩ (), w')) ↔
          Matches G (.call k) b (some y)) ∧
        (((∃ r e w', p k ⟨.endOfInput, b⟩ w = .ok (.error r e, w')) ∨
          ∃ n w', p k ⟨.endOfInput, b⟩ w = .ok (.incomplete n, w')) ↔ Matches G (.call k) b none) := by
  have key := fun e : Peg K I => Peg.expressible (σ := σ) e
  refine ⟨fun q k => (key (G k)).choose q, fun a k => (key (G k)).choose_spec.1 a, ?_⟩
  intro p hp k b w
  have hF := fun k => (key (G k)).choose_spec.2
  refine ⟨fun y => ?_, C92_failure G _ hF p hp _ (.call k) (.call k) b w⟩
  rw [← C92_success G _ hF p hp _ (.call k) (.call k) b y w]
  exact ⟨fun ⟨w', h⟩ => ⟨(), w', h⟩, fun ⟨_, w', h⟩ => ⟨w', h⟩⟩

/-! ### Example: a language which is not context-free -/

namespace PegEx

/-- `A ← a A b / ε` (`true`) and `B ← b B c / ε` (`false`) -/
def grammar : Bool → Peg Bool Char
  | true => .opt (.seq (.item (· = 'a')) (.seq (.call true) (.item (· = 'b'))))
  | false => .opt (.seq (.item (· = 'b')) (.seq (.call false) (.item (· = 'c'))))

/-- `fn a(i) { option(i, |i| parse!{i; token('a'); a(); token('b')}, ' ') }`, and likewise `b`. -/
def body (q : Fns Unit Char (fun _ : Bool => Char) (fun _ => Error Char)) :
    Fns Unit Char (fun _ : Bool => Char) (fun _ => Error Char)
  | true => Comb.option (Parser.andThen id (Parsers.token true 'a')
      (Parser.andThen id (q true) (Parsers.token true 'b'))) ' '
  | false => Comb.option (Parser.andThen id (Parsers.token true 'b')
      (Parser.andThen id (q false) (Parsers.token true 'c'))) ' '

theorem body_shows (k : Bool) : Shows (fun q => body q k) (grammar k) := by
  cases k with
  | true => exact .option _ (.andThen (.token _ _) (.andThen (.call true) (.token _ _)))
  | false => exact .option _ (.andThen (.token _ _) (.andThen (.call false) (.token _ _)))

/-- `S ← &(A c) a* B !.` -/
def start : Peg Bool Char :=
  .seq (.and (.seq (.call true) (.item (· = 'c'))))
    (.seq (.star (.item (· = 'a'))) (.seq (.call false) (.not .any)))

/-- `parse!{i; look_ahead(|i| a(i).then(|i| token(i, 'c'))); take_while(|c| c == 'a'); b(); eof()}` -/
def parser (q : Fns Unit Char (fun _ : Bool => Char) (fun _ => Error Char)) :
    Parser Unit Char Unit (Error Char) :=
  Parser.andThen id (Comb.lookAhead (Parser.andThen id (q true) (Parsers.token true 'c'))) <|
  Parser.andThen id (Parsers.takeWhile fun c => decide (c = 'a')) <|
  Parser.andThen id (q false) (Parsers.eof true)

theorem parser_shows : Shows parser start :=
  .andThen (.lookAhead (.andThen (.call true) (.token _ _)))
    (.andThen (.takeWhile _) (.andThen (.call false) (.eof _)))

theorem nest (k : Bool) (x y : Char) (hxy : x ≠ y)
    (hk : grammar k = .opt (.seq (.item (· = x)) (.seq (.call k) (.item (· = y))))) (n : Nat) :
    ∀ rest : List Char, (∀ c r, rest = c :: r → c ≠ x) →
    Matches grammar (.call k) (List.replicate n x ++ (List.replicate n y ++ rest)) (some rest) := by
  induction n with
  | zero =>
    intro rest h
    refine .call ?_
    rw [hk]
    refine .alt_second (.seq_fail ?_) .empty
    cases rest with
    | nil => exact .item_end
    | cons c r => exact .item_other (decide_eq_false (h c r rfl))
  | succ n ih =>
    intro rest h
    have h1 := ih (y :: rest) (fun c r e => by cases e; exact hxy.symm)
    have e : List.replicate (n + 1) x ++ (List.replicate (n + 1) y ++ rest) =
        x :: (List.replicate n x ++ (List.replicate n y ++ y :: rest)) := by
      rw [List.replicate_succ, List.replicate_succ', List.append_assoc]
      rfl
    refine .call ?_
    rw [hk, e]
    exact .alt (.seq (.item (decide_eq_true rfl)) (.seq h1 (.item (decide_eq_true rfl))))

theorem skip_a (n : Nat) (rest : List Char) (h : ∀ c r, rest = c :: r → c ≠ 'a') :
    Matches grammar (.star (.item (· = 'a'))) (List.replicate n 'a' ++ rest) (some rest) := by
  induction n with
  | zero =>
    refine .star_stop ?_
    cases rest with
    | nil => exact .item_end
    | cons c r => exact .item_other (decide_eq_false (h c r rfl))
  | succ n ih => exact .star (.item (decide_eq_true rfl)) ih

/-- It accepts `aⁿbⁿcⁿ` for every n ≥ 1. -/
example (p : Fns Unit Char (fun _ : Bool => Char) (fun _ => Error Char)) (hp : Means body p) (n : Nat) :
    ∃ t w', parser p ⟨.endOfInput, List.replicate (n + 1) 'a' ++ (List.replicate (n + 1) 'b' ++
      List.replicate (n + 1) 'c')⟩ () = .ok (.data ⟨.endOfInput, []⟩ t, w') := by
  refine (C92_success grammar body body_shows p hp parser start parser_shows _ _ _).mpr ?_
  have h1 := nest true 'a' 'b' (by decide) rfl (n + 1) (List.replicate (n + 1) 'c')
    (fun c r e => by cases e; decide)
  have h2 := nest false 'b' 'c' (by decide) rfl (n + 1) [] nofun
  rw [List.append_nil] at h2
  exact .seq (.not_fail (.not (.seq h1 (.item (decide_eq_true rfl)))))
    (.seq (skip_a _ _ (fun c r e => by cases e; decide)) (.seq h2 (.not_fail .item_end)))

/-- It rejects `aabc`. -/
example (p : Fns Unit Char (fun _ : Bool => Char) (fun _ => Error Char)) (hp : Means body p) :
    (∃ r e w', parser p ⟨.endOfInput, ['a', 'a', 'b', 'c']⟩ () = .ok (.error r e, w')) ∨
      ∃ n w', parser p ⟨.endOfInput, ['a', 'a', 'b', 'c']⟩ () = .ok (.incomplete n, w') := by
  refine (C92_failure grammar body body_shows p hp parser start parser_shows _ _).mpr ?_
  have h0 : ∀ r, Matches grammar (.call true) ('b' :: r) (some ('b' :: r)) := fun r =>
    .call (.alt_second (.seq_fail (.item_other rfl)) .empty)
  have h1 : ∀ r, Matches grammar (.call true) ('a' :: 'b' :: r) (some r) := fun r =>
    .call (.alt (.seq (.item rfl) (.seq (h0 _) (.item rfl))))
  have h2 : Matches grammar (.call true) ['a', 'a', 'b', 'c'] (some ['a', 'a', 'b', 'c']) :=
    .call (.alt_second (.seq (.item rfl) (.seq (h1 _) (.item_other rfl))) .empty)
  exact .seq_fail (.not (.not_fail (.seq h2 (.item_other rfl))))

/-- `signed(i, decimal)` of a release build -/
def number : Parser Unit UInt8 Int (Error UInt8) :=
  Ascii.signed true (Ascii.IntTy.num ⟨32, true, false⟩) (Ascii.decimal true (Ascii.IntTy.num ⟨32, true, false⟩))

theorem computes_num (t : Ascii.IntTy) : Computes t.num := by
  constructor <;>
  · intro a b
    simp only [Ascii.IntTy.num, Ascii.IntTy.norm]
    split
    · simp
    · split <;> simp

/-- It is `[-+]? [0-9] [0-9]*`: it takes `-42` off `-42;`, and there is no number in `-;`. -/
example : Shows (K := Empty) (T := nofun) (E := nofun) (fun _ => number)
    (.seq (.opt (.item fun c => decide (c = 45 ∨ c = 43))) (.seq (.item fun c => decide (48 ≤ c ∧ c ≤ 57))
      (.star (.item fun c => decide (48 ≤ c ∧ c ≤ 57))))) :=
  have ht := wrapping_total 32 true
  have hc := computes_num ⟨32, true, false⟩
  C92_signed true _ ht hc _ _ (C92_decimal true _ ht hc)

/-- `many_till(i, 1.., any, |i| string(i, "*/"))`, a comment which is not empty; `many_till(i, 1..3, ..)`, one of
one or two characters. -/
example : Shows (K := Empty) (σ := Unit) (T := nofun) (E := nofun)
    (fun _ => Bounded.manyTill (.from_ 1) (Collect.vec Char) Parsers.any (Parsers.string true ['*', '/']))
      (.seq .any (.seq (.star (.seq (.not (.literal ['*', '/'])) .any)) (.literal ['*', '/']))) ∧
    Shows (K := Empty) (σ := Unit) (T := nofun) (E := nofun)
    (fun _ => Bounded.manyTill (.range 1 3) (Collect.vec Char) Parsers.any (Parsers.string true ['*', '/']))
      (.seq .any (.alt (.literal ['*', '/']) (.seq .any (.literal ['*', '/'])))) :=
  ⟨.tillFrom 1 .any (.string true _), .tillRange 1 3 (by decide) .any (.string true _)⟩

/-- `e*` with an `e` which matches the empty string: the parser does not return, and there is no outcome. -/
example (b : List Char) (w : Unit) :
    (Comb.skipMany (Parser.ret () : Parser Unit Char Unit (Error Char))) ⟨.endOfInput, b⟩ w = .div ∧
      ∀ o, ¬ Matches (fun k : Empty => nomatch k) (.star .empty) b o := by
  have h : ∀ o, ¬ Matches (fun k : Empty => nomatch k) (.star .empty) b o := by
    intro o ho
    generalize he : Peg.star Peg.empty = e at ho
    induction ho with
    | star h1 _ _ ih => cases he; cases h1; exact ih rfl
    | star_stop h1 _ => cases he; cases h1
    | _ => cases he
  refine ⟨(C92_endless (T := fun k : Empty => nomatch k) (E := fun k => nomatch k)
    (fun k : Empty => nomatch k) (fun q => q) (fun k => nomatch k) (fun k => nomatch k) (fun k => nomatch k)
    (fun _ => Comb.skipMany (Parser.ret () : Parser Unit Char Unit (Error Char))) (.star .empty)
    (.skipMany (.ret ())) b w).mpr h, h⟩

end PegEx

end Chomp.Props
