import Verif.Props.Printed
import Verif.Lemmas.Script

/-
C105 for whole programs: lists of numbers, and S-expressions which are written one to a line.
-/

namespace Chomp.Props

open Spec

variable {σ : Type}

/-! ### A list of numbers -/

namespace PrintedEx

/-- `sep_by(i, decimal, |i| token(i, b','))` -/
def numbers (v : Bool) (t : Ascii.IntTy) : Parser σ UInt8 (List Int) (Error UInt8) :=
  Comb.sepBy id (Collect.vec Int) (Ascii.decimal v t.num) (Parsers.token v (byte ','))

/-- The numbers in base 10, with commas between them. -/
def showNumbers : List Nat → List UInt8
  | [] => []
  | n :: ns => printNat n ++ ns.flatMap fun k => byte ',' :: printNat k

/-- The format of one number. -/
def Number (t : Ascii.IntTy) : Format Int UInt8 := fun z x => ∃ n : Nat, z = n ∧ (n : Int) ≤ t.max ∧ x = printNat n

theorem showNumbers_format (t : Ascii.IntTy) (ns : List Nat) (h : ∀ n ∈ ns, (n : Int) ≤ t.max) :
    Format.separated (Number t) (Format.item (· = byte ',')) (ns.map fun n : Nat => (n : Int))
      (showNumbers ns) := by
  cases ns with
  | nil => rfl
  | cons n ns =>
    refine ⟨printNat n, _, rfl, ⟨n, rfl, h n (.head _), rfl⟩, ?_⟩
    have hs : ∀ k ∈ ns, (k : Int) ≤ t.max := fun k hk => h k (.tail _ hk)
    clear h
    induction ns with
    | nil => rfl
    | cons k ns ih =>
      refine ⟨byte ',' :: printNat k, _, rfl,
        ⟨byte ',', [byte ','], printNat k, rfl, ⟨rfl, rfl⟩, k, rfl, hs k (.head _), rfl⟩, ?_⟩
      exact ih fun j hj => hs j (.tail _ hj)

/-- What may follow the list. -/
def After (i : Input UInt8) : Prop := Next (fun c => ¬ (byte '0' ≤ c ∧ c ≤ byte '9') ∧ c ≠ byte ',') i

theorem numbers_back (v : Bool) (t : Ascii.IntTy) :
    ReadsBack (Format.separated (Number t) (Format.item (· = byte ','))) After
      (numbers v t : Parser σ UInt8 (List Int) (Error UInt8)) := by
  refine C105_sep_by (G := fun i => Ends i.mode i.buf) (H := Anything) id (C105_decimal v t)
    (C105_token v (byte ',')) ?_ ?_ (fun _ _ => trivial) ?_ ?_
  · rintro ⟨m, b⟩ h
    cases b with
    | nil => exact h
    | cons c r => exact h.1
  · rintro ⟨m, b⟩ ⟨_, _, y, ⟨rfl, rfl⟩, e, _⟩
    obtain rfl : b = byte ',' :: y := e
    exact (by decide : ¬ (byte '0' ≤ byte ',' ∧ byte ',' ≤ byte '9'))
  · refine C105_refuses_weaken (C105_refuses_decimal v t.num) ?_
    rintro ⟨m, b⟩ h
    cases b with
    | nil => exact h
    | cons c r => exact h.1
  · refine C105_refuses_weaken (C105_refuses_token v (byte ',')) ?_
    rintro ⟨m, b⟩ h
    cases b with
    | nil => exact h
    | cons c r => exact h.2

end PrintedEx

open PrintedEx in
/-- Every list of numbers of the type, empty or not, is read back from its text: by `parse_only`, and from
the middle of other data if neither a digit nor a comma follows. -/
theorem C105_numbers (v : Bool) (t : Ascii.IntTy) (ns : List Nat) (h : ∀ n ∈ ns, (n : Int) ≤ t.max)
    (rest : List UInt8) (hr : Next (fun c => ¬ (byte '0' ≤ c ∧ c ≤ byte '9') ∧ c ≠ byte ',') ⟨.endOfInput, rest⟩)
    (w : σ) :
    ∃ w', parseOnly (numbers v t) (showNumbers ns ++ rest) w = .ok (.ok (ns.map fun n : Nat => (n : Int)), w') :=
  C105_parse_only (numbers_back v t) _ _ _ (showNumbers_format t ns h) hr w

open PrintedEx in
example (w : σ) : ∃ w', parseOnly (numbers true ⟨8, false, true⟩) (bytes "255,0,17;") w =
    .ok (.ok [255, 0, 17], w') :=
  C105_numbers true ⟨8, false, true⟩ [255, 0, 17] (by decide) [byte ';'] (by constructor <;> decide) w

/-! ### S-expressions -/

namespace PrintedEx

/-- A symbol, or a list of S-expressions. -/
inductive Sexp where
  | sym (s : List UInt8)
  | list (ts : List Sexp)

mutual
/-- How it is written: `(a (b c) ())`. -/
def Sexp.show : Sexp → List UInt8
  | .sym s => s
  | .list ts => byte '(' :: (showList ts ++ [byte ')'])
def showList : List Sexp → List UInt8
  | [] => []
  | t :: ts => t.show ++ showTail ts
def showTail : List Sexp → List UInt8
  | [] => []
  | t :: ts => (byte ' ' :: t.show) ++ showTail ts
end

mutual
/-- Symbols are words of letters. -/
def Sexp.proper : Sexp → Prop
  | .sym s => s ≠ [] ∧ ∀ c ∈ s, Ascii.isAlpha c = true
  | .list ts => allProper ts
def allProper : List Sexp → Prop
  | [] => True
  | t :: ts => t.proper ∧ allProper ts
end

mutual
def Sexp.depth : Sexp → Nat
  | .sym _ => 0
  | .list ts => depthAll ts + 1
def depthAll : List Sexp → Nat
  | [] => 0
  | t :: ts => max t.depth (depthAll ts)
end

/-- ```text
fn sexp(i) {                                                               // sexp = false
    or(i, |i| take_while1(i, is_alpha).map(Sym),
          |i| parse!{i; token(b'('); let ts = sep_by(sexp, |i| token(i, b' ')); token(b')'); ret List(ts)})
}
fn line(i) { parse!{i; let t = sexp(); token(b'\n'); ret t} }               // line = true
``` -/
def program (v : Bool) (q : Fns σ UInt8 (fun _ : Bool => Sexp) (fun _ => Error UInt8)) :
    Fns σ UInt8 (fun _ : Bool => Sexp) (fun _ => Error UInt8)
  | false =>
    Comb.or (Parser.map (Parsers.takeWhile1 v Ascii.isAlpha) .sym) <|
      Parser.andThen id (Parsers.token v (byte '(')) <|
      Parser.bind id (Comb.sepBy id (Collect.vec Sexp) (q false) (Parsers.token v (byte ' '))) fun ts =>
      Parser.andThen id (Parsers.token v (byte ')')) (Parser.ret (.list ts))
  | true =>
    Parser.bind id (q false) fun t => Parser.andThen id (Parsers.token v (byte '\n')) (Parser.ret t)

theorem program_body (v : Bool) (a : Allow) (k : Bool) :
    Body a (fun q : Fns σ UInt8 _ _ => program v q k) := by
  cases k with
  | false =>
    exact .or (.map _ (.const (.takeWhile1 _ _))) <| .andThen (.const (.token _ _)) <|
      .bind (.sepBy _ _ (.call false) (.const (.token _ _))) fun _ =>
        .andThen (.const (.token _ _)) (.const (.ret _))
  | true => exact .bind (.call false) fun _ => .andThen (.const (.token _ _)) (.const (.ret _))

theorem program_guarded (v : Bool) (k : Bool) :
    Guarded (fun _ => true) (fun k => if k then 1 else 0) (some (if k then 1 else 0)) true
      (fun q : Fns σ UInt8 _ _ => program v q k) := by
  cases k with
  | false =>
    exact .or (c := true) (d := true) (.map _ (.const (.takeWhile1 _ _))) <|
      .andThen (c := true) (d := true) (.const (.token _ _)) <|
      .bind (c := false) (d := true)
        (.sepBy (g := none) _ _ (.inl rfl) (.call false nofun) (.const (c := true) (.token _ _)))
        fun _ => .andThen (c := true) (d := false) (.const (.token _ _)) (.const (.ret _))
  | true =>
    exact .bind (c := true) (d := true) (.call false fun r h => by cases h; decide) fun _ =>
      .andThen (c := true) (d := false) (.const (.token _ _)) (.const (.ret _))

/-- What may follow an S-expression: no letter. -/
def NoLetter (i : Input UInt8) : Prop := Next (fun c => Ascii.isAlpha c = false) i

/-- How the S-expressions of depth under `n` are written, and the lines. -/
def Shown (n : Nat) : (k : Bool) → Format Sexp UInt8
  | false => fun t x => t.depth < n ∧ t.proper ∧ x = t.show
  | true => fun t x => t.depth + 1 < n ∧ t.proper ∧ x = t.show ++ [byte '\n']

theorem showTail_format (n : Nat) (ts : List Sexp) (hd : depthAll ts < n) (hp : allProper ts) :
    Format.list (Format.seq (Format.item (· = byte ' ')) fun _ => Shown n false) ts (showTail ts) := by
  induction ts with
  | nil => rw [showTail]; rfl
  | cons t ts ih =>
    rw [depthAll] at hd
    rw [allProper] at hp
    rw [showTail]
    exact ⟨_, _, rfl, ⟨byte ' ', [byte ' '], t.show, rfl, ⟨rfl, rfl⟩, by omega, hp.1, rfl⟩,
      ih (by omega) hp.2⟩

theorem showList_format (n : Nat) (ts : List Sexp) (hd : depthAll ts < n) (hp : allProper ts) :
    Format.separated (Shown n false) (Format.item (· = byte ' ')) ts (showList ts) := by
  cases ts with
  | nil => rw [showList]; rfl
  | cons t ts =>
    rw [depthAll] at hd
    rw [allProper] at hp
    rw [showList]
    exact ⟨_, _, rfl, ⟨by omega, hp.1, rfl⟩, showTail_format n ts (by omega) hp.2⟩

/-- Neither a letter nor a bracket begins here. -/
theorem sexp_refuses (v : Bool) (p : Fns σ UInt8 (fun _ : Bool => Sexp) (fun _ => Error UInt8))
    (hp : ∀ k, p k = program v p k) :
    Refuses (Next fun c => Ascii.isAlpha c = false ∧ c ≠ byte '(') (p false) := by
  rw [hp false]
  refine C105_refuses_or (C105_refuses_map _ (C105_refuses_weaken (C105_refuses_take_while1 v _) ?_))
    ((C105_refuses_first id (C105_refuses_weaken (C105_refuses_token v (byte '(')) ?_)).2 _)
  · rintro ⟨m, b⟩ h
    cases b with
    | nil => exact h
    | cons c r => exact h.1
  · rintro ⟨m, b⟩ h
    cases b with
    | nil => exact h
    | cons c r => exact h.2

theorem sexp_back (v : Bool) (p : Fns σ UInt8 (fun _ : Bool => Sexp) (fun _ => Error UInt8))
    (hp : Means (program v) p) (k : Bool) :
    ReadsBack (fun t x => ∃ n, Shown n k t x) (if k then Anything else NoLetter) (p k) := by
  have hq := C90_equation (a := everything) (program v) (program_body v _) p hp
  refine C105_recursive (a := everything) (program v) (program_body v _) p hp Shown
    (fun k => if k then Anything else NoLetter) ?_ ?_ k
  · rintro (_ | _) t x h
    · exact Nat.not_lt_zero _ h.1
    · exact Nat.not_lt_zero _ h.1
  · intro n ih k
    have ih0 : ReadsBack (Shown n false) NoLetter (p false) := ih false
    cases k with
    | false =>
      -- a symbol or a list
      have hsym : ReadsBack (Format.through Sexp.sym (Format.text fun x => x ≠ [] ∧ ∀ c ∈ x, Ascii.isAlpha c = true))
          NoLetter (Parser.map (Parsers.takeWhile1 v Ascii.isAlpha) Sexp.sym : Parser σ UInt8 Sexp (Error UInt8)) :=
        C105_map _ (C105_take_while1 v _)
      have hitems : ReadsBack (Format.separated (Shown n false) (Format.item (· = byte ' ')))
          (fun i => i.buf ≠ [] ∧ Next (· = byte ')') i)
          (Comb.sepBy id (Collect.vec Sexp) (p false) (Parsers.token v (byte ' '))) := by
        refine C105_sep_by (G := NoLetter) (H := Anything) id ih0 (C105_token v (byte ' ')) ?_ ?_
          (fun _ _ => trivial) ?_ ?_
        · rintro ⟨m, b⟩ ⟨h1, h2⟩
          cases b with
          | nil => exact absurd rfl h1
          | cons c r =>
            obtain rfl : c = byte ')' := h2
            exact (by decide : Ascii.isAlpha (byte ')') = false)
        · rintro ⟨m, b⟩ ⟨_, _, y, ⟨rfl, rfl⟩, e, _⟩
          obtain rfl : b = byte ' ' :: y := e
          exact (by decide : Ascii.isAlpha (byte ' ') = false)
        · refine C105_refuses_weaken (sexp_refuses v p hq) ?_
          rintro ⟨m, b⟩ ⟨h1, h2⟩
          cases b with
          | nil => exact absurd rfl h1
          | cons c r =>
            obtain rfl : c = byte ')' := h2
            exact (by decide : Ascii.isAlpha (byte ')') = false ∧ byte ')' ≠ byte '(')
        · refine C105_refuses_weaken (C105_refuses_token v (byte ' ')) ?_
          rintro ⟨m, b⟩ ⟨h1, h2⟩
          cases b with
          | nil => exact absurd rfl h1
          | cons c r =>
            obtain rfl : c = byte ')' := h2
            exact (by decide : byte ')' ≠ byte ' ')
      have hlist := C105_then (F := NoLetter) (G := Anything) id
        (C105_token (σ := σ) v (byte '(')) (C105_bind (F := NoLetter) id hitems
          (S := fun ts => Format.seq (Format.item (· = byte ')')) fun _ => Format.nothing (Sexp.list ts))
          (f := fun ts => Parser.andThen id (Parsers.token v (byte ')')) (Parser.ret (.list ts)))
          (fun ts => C105_then id (C105_token v (byte ')'))
            (C105_weaken (C105_ret (Sexp.list ts)) (fun _ _ h => h) (fun _ _ => trivial))
            (fun _ _ => trivial)) (by
              rintro ts x ⟨m, b⟩ _ ⟨_, _, y, ⟨_, _, _, rfl, ⟨rfl, rfl⟩, _, rfl⟩, e, _⟩
              obtain rfl : b = byte ')' :: y := e
              exact ⟨nofun, rfl⟩))
        (fun _ _ => trivial)
      refine C105_weaken (C105_or hsym hlist ?_) ?_ (fun _ h => h)
      · -- a list does not begin with a letter
        refine C105_refuses_map _ (C105_refuses_weaken (C105_refuses_take_while1 v _) ?_)
        rintro ⟨m, b⟩ ⟨_, _, y, ⟨_, _, z, rfl, ⟨rfl, rfl⟩, _⟩, e, _⟩
        obtain rfl : b = byte '(' :: (z ++ y) := e
        exact (by decide : Ascii.isAlpha (byte '(') = false)
      · rintro t x ⟨hd, hpr, rfl⟩
        cases t with
        | sym s =>
          rw [Sexp.proper] at hpr
          rw [Sexp.show]
          exact .inl ⟨s, rfl, rfl, hpr⟩
        | list ts =>
          rw [Sexp.proper] at hpr
          rw [Sexp.depth] at hd
          rw [Sexp.show]
          exact .inr ⟨byte '(', [byte '('], showList ts ++ [byte ')'], rfl, ⟨rfl, rfl⟩,
            ts, showList ts, [byte ')'], rfl, showList_format n ts (by omega) hpr,
            byte ')', [byte ')'], [], rfl, ⟨rfl, rfl⟩, rfl, rfl⟩
    | true =>
      refine C105_weaken (C105_followed id id ih0 (C105_token v (byte '\n')) ?_) ?_ (fun _ h => h)
      · rintro ⟨m, b⟩ ⟨_, _, y, ⟨rfl, rfl⟩, e, _⟩
        obtain rfl : b = byte '\n' :: y := e
        exact (by decide : Ascii.isAlpha (byte '\n') = false)
      · rintro t x ⟨hd, hpr, rfl⟩
        exact ⟨t.show, [byte '\n'], rfl, ⟨by omega, hpr, rfl⟩, byte '\n', rfl, rfl⟩

theorem line_reader (v : Bool) (p : Fns Unit UInt8 (fun _ : Bool => Sexp) (fun _ => Error UInt8))
    (hp : Means (program v) p) : Reader 1 (p true) where
  built := C90_assembled (program v) (program_body v _) p hp true
  returns i := by
    have hq := C90_equation (a := everything) (program v) (program_body v _) p hp
    have h1 := C91_returns _ _ (program v) (program_guarded v) p hq true i ()
    have h2 := C90_no_panic (program v) (program_body v _) p hp true i ()
    have h3 := C91_defined _ _ (program v) (program_guarded v) p hq true i ()
    match h : p true i () with
    | .ok (r, ()) => exact ⟨r, rfl⟩
    | .panic => exact absurd h h2
    | .ub => exact absurd h h3
    | .div => exact absurd h h1
  consumes i i' t h := by
    have hq := C90_equation (a := everything) (program v) (program_body v _) p hp
    exact C91_consumes _ _ (program v) (program_guarded v) p hq true i i' t () () h
  empty := by
    have hq := C90_equation (a := everything) (program v) (program_body v _) p hp
    exact ⟨1, by rw [hq true]; show Parser.bind _ (p false) _ _ _ = _; rw [hq false]; rfl⟩

/-- Lines. -/
def showLines (ts : List Sexp) : List UInt8 := ts.flatMap fun t => t.show ++ [byte '\n']

end PrintedEx

open PrintedEx in
/-- Every S-expression the symbols of which are words is read back from its text, however deep it is nested
and however long its lists are. -/
theorem C105_sexp (v : Bool) (p : Fns σ UInt8 (fun _ : Bool => Sexp) (fun _ => Error UInt8))
    (hp : Means (program v) p) (t : Sexp) (ht : t.proper) (rest : List UInt8)
    (hr : Next (fun c => Ascii.isAlpha c = false) ⟨.endOfInput, rest⟩) (w : σ) :
    ∃ w', parseOnly (p false) (t.show ++ rest) w = .ok (.ok t, w') :=
  C105_parse_only (sexp_back v p hp false) t _ rest ⟨t.depth + 1, Nat.lt_succ_self _, ht, rfl⟩ hr w

open PrintedEx in
/-- Two different ones are not written in the same way. -/
theorem C105_sexp_unambiguous (t t' : Sexp) (ht : t.proper) (ht' : t'.proper) (h : t.show = t'.show) : t = t' := by
  obtain ⟨p, hp, _⟩ := C90_exists (σ := Unit) (a := everything) (program true) (program_body true _)
  refine (C105_unambiguous () (sexp_back true p hp false) t t' _ _ [] [] .endOfInput
    ⟨t.depth + 1, Nat.lt_succ_self _, ht, rfl⟩ ⟨t'.depth + 1, Nat.lt_succ_self _, ht', rfl⟩ rfl rfl ?_).1
  rw [h]

open PrintedEx in
/-- All S-expressions which were written to a stream, one to a line, are read from it, in this order and
without an error, however the data arrives and whatever I/O errors are in between. -/
theorem C105_sexp_stream {S : Type} [DataSource S UInt8] [HonestSource S UInt8] {rem : S → List UInt8}
    {errs : S → Nat} (hd : Delivers S rem errs) (chk v : Bool)
    (p : Fns Unit UInt8 (fun _ : Bool => Sexp) (fun _ => Error UInt8)) (hp : Means (program v) p)
    (src : S) (extra : Nat → Nat) (hl : (rem src).length + 1 ≤ 2 ^ 62) (ts : List Sexp)
    (ht : ∀ t ∈ ts, t.proper) (hs : rem src = showLines ts) :
    patient chk (p true) (fun a t => .ok (a ++ [t]))
      (Source.withBuffer src (GrowingBuffer.withLimit extra 0 : GrowingBuffer UInt8)) [] () =
        .ok (.ok ts, ()) := by
  refine C105_records (F := Anything) hd chk (sexp_back v p hp true) (fun _ _ => trivial) trivial
    (line_reader v p hp) src extra hl ts ?_
  rw [hs]
  clear hs
  induction ts with
  | nil => rfl
  | cons t ts ih =>
    exact ⟨t.show ++ [byte '\n'], _, rfl, ⟨t.depth + 2, Nat.lt_succ_self _, ht t (.head _), rfl⟩,
      ih fun t' h => ht t' (.tail _ h)⟩

namespace PrintedEx

/-- `(ab (c ()) d)` -/
def sample : Sexp := .list [.sym (bytes "ab"), .list [.sym (bytes "c"), .list []], .sym (bytes "d")]

example : sample.show = bytes "(ab (c ()) d)" := by decide

theorem sample_proper : sample.proper := by
  simp only [sample, Sexp.proper, allProper]
  decide

/-- In two lines which arrive in pieces, with an I/O error. -/
example (chk v : Bool) (extra : Nat → Nat) (p : Fns Unit UInt8 (fun _ : Bool => Sexp) (fun _ => Error UInt8))
    (hp : Means (program v) p) :
    patient chk (p true) (fun a t => .ok (a ++ [t]))
      (Source.withBuffer (⟨[.data (byte '(') (bytes "ab (c"), .err ⟨1⟩, .data (byte ' ') (bytes "()) d)\nxyz\n")]⟩ :
        Script UInt8) (GrowingBuffer.withLimit extra 0 : GrowingBuffer UInt8)) [] () =
        .ok (.ok [sample, .sym (bytes "xyz")], ()) := by
  refine C105_sexp_stream Script.delivers chk v p hp _ extra (by decide) _ ?_ (by decide)
  intro t ht
  rcases List.mem_cons.1 ht with rfl | ht
  · exact sample_proper
  · obtain rfl := List.mem_singleton.1 ht
    simp only [Sexp.proper]
    decide

end PrintedEx

/-! ### Further cases which meet the hypotheses -/

/-- A text in quotes, `parse!{i; token(b'"'); many_till(any, |i| token(i, b'"'))}`: any text without quotes is
read back, whatever follows. -/
example (v : Bool) : ReadsBack
    (Format.seq (Format.item (· = byte '"')) fun _ =>
      Format.followed (Format.list (Format.item (· ≠ byte '"'))) (Format.item (· = byte '"'))) Anything
    (Parser.andThen id (Parsers.token v (byte '"'))
      (Comb.manyTill (Collect.vec UInt8) Parsers.any (Parsers.token v (byte '"'))) :
        Parser σ UInt8 (List UInt8) (Error UInt8)) := by
  refine C105_then (G := Anything) id (C105_token v _)
    (C105_many_till (G := Anything) (C105_weaken C105_any (fun _ _ h => ⟨h.1, trivial⟩) (fun _ h => h))
      (C105_token v _) (fun _ _ => trivial) (fun _ _ => trivial)
      (C105_declines (C105_refuses_weaken (C105_refuses_token v _) ?_))) (fun _ _ => trivial)
  rintro ⟨m, b⟩ ⟨c, _, y, ⟨rfl, hc⟩, e, _⟩
  obtain rfl : b = c :: y := e
  exact hc

/-- But a text with a quote in it is not read back: the format with all texts is refuted. -/
example (v : Bool) : ¬ ReadsBack
    (Format.followed (Format.list (Format.item fun _ => True)) (Format.item (· = byte '"'))) Anything
    (Comb.manyTill (Collect.vec UInt8) Parsers.any (Parsers.token v (byte '"')) :
      Parser Unit UInt8 (List UInt8) (Error UInt8)) := by
  intro h
  have h1 := (C105_unambiguous () h [byte '"'] [] [byte '"', byte '"'] [byte '"'] [] [byte '"'] .endOfInput
    ⟨[byte '"'], [byte '"'], rfl, ⟨[byte '"'], [], rfl, ⟨rfl, trivial⟩, rfl⟩, byte '"', rfl, rfl⟩
    ⟨[], [byte '"'], rfl, rfl, byte '"', rfl, rfl⟩ trivial trivial rfl).1
  exact nomatch h1

/-- An optional sign, and a word in one of two ways: `option(token(b'-'), b'+')`, then letters or digits. -/
example (v : Bool) : ReadsBack
    (Format.seq (Format.either (Format.item (· = byte '-')) (Format.nothing (byte '+'))) fun _ =>
      Format.either (Format.text fun x => x ≠ [] ∧ ∀ c ∈ x, Ascii.isAlpha c = true)
        (Format.text fun x => x ≠ [] ∧ ∀ c ∈ x, Ascii.isDigit c = true))
    (Next fun c => Ascii.isAlphanumeric c = false)
    (Parser.andThen id (Comb.option (Parsers.token v (byte '-')) (byte '+')) <|
      Comb.or (Parsers.takeWhile1 v Ascii.isAlpha) (Parsers.takeWhile1 v Ascii.isDigit) :
        Parser σ UInt8 (List UInt8) (Error UInt8)) := by
  have hout : ∀ i : Input UInt8, Next (fun c => Ascii.isAlphanumeric c = false) i →
      Next (fun c => Ascii.isAlpha c = false) i ∧ Next (fun c => Ascii.isDigit c = false) i := by
    rintro ⟨m, b⟩ h
    cases b with
    | nil => exact ⟨h, h⟩
    | cons c r => exact Bool.or_eq_false_iff.1 h
  have hdigit : ∀ c, Ascii.isDigit c = true → Ascii.isAlpha c = false ∧ c ≠ byte '-' := by
    intro c hc
    simp only [Ascii.isDigit, Ascii.isAlpha, Ascii.isLowercase, Ascii.isUppercase, Bool.and_eq_true,
      decide_eq_true_eq, UInt8.le_iff_toNat_le, Bool.or_eq_false_iff, Bool.and_eq_false_iff,
      decide_eq_false_iff_not] at hc ⊢
    refine ⟨?_, fun h => ?_⟩
    · have := hc.1; have := hc.2
      simp at *
      omega
    · subst h
      exact absurd hc.1 (by decide)
  have halpha : ∀ c, Ascii.isAlpha c = true → c ≠ byte '-' := by
    rintro c hc rfl
    exact absurd hc (by decide)
  refine C105_then (G := Next (· ≠ byte '-')) id
    (C105_option (byte '+') (C105_weaken (C105_token v _) (fun _ _ h => h) (fun _ _ => trivial))
      (C105_refuses_token v _))
    (C105_or (C105_weaken (C105_take_while1 v _) (fun _ _ h => h) (fun i h => (hout i h).1))
      (C105_weaken (C105_take_while1 v _) (fun _ _ h => h) (fun i h => (hout i h).2)) ?_) ?_
  · refine C105_refuses_weaken (C105_refuses_take_while1 v _) ?_
    rintro ⟨m, b⟩ ⟨_, x, y, ⟨rfl, hn, hx⟩, e, _⟩
    cases x with
    | nil => exact absurd rfl hn
    | cons c x =>
      obtain rfl : b = c :: (x ++ y) := e
      exact (hdigit c (hx c (.head _))).1
  · rintro ⟨m, b⟩ ⟨_, x, y, ⟨rfl, hn, hx⟩ | ⟨rfl, hn, hx⟩, e, _⟩
    · cases x with
      | nil => exact absurd rfl hn
      | cons c x =>
        obtain rfl : b = c :: (x ++ y) := e
        exact halpha c (hx c (.head _))
    · cases x with
      | nil => exact absurd rfl hn
      | cons c x =>
        obtain rfl : b = c :: (x ++ y) := e
        exact (hdigit c (hx c (.head _))).2

open RecordsEx in
/-- Lines through a buffer of fixed size. -/
example {S : Type} [DataSource S UInt8] [HonestSource S UInt8] {rem : S → List UInt8} {errs : S → Nat}
    (hd : Delivers S rem errs) (chk : Bool) (src : S) (b : FixedSizeBuffer UInt8)
    (hb : FixedSizeBuffer.withSize 80 = .ok b) (hq : errs src = 0) (hl : (rem src).length + 1 ≤ usizeMax)
    (ls : List (List UInt8)) (hs : ∀ l ∈ ls, l ≠ [] ∧ (∀ c ∈ l, c ≠ 10) ∧ l.length ≤ 79)
    (hr : rem src = ls.flatMap (· ++ [10])) :
    records chk line (fun a t => .ok (a ++ [t])) (Source.withBuffer src b) [] () = .ok (.ok ls, ()) := by
  have hline : ReadsBack (fun l x => x = l ++ [10] ∧ l ≠ [] ∧ ∀ c ∈ l, c ≠ 10) Anything line := by
    rintro l _ m y w ⟨rfl, h1, h2⟩ _
    exact ⟨(), line_data.mpr ⟨rfl, h1, h2, by simp⟩⟩
  refine C105_fixed (R := fun l x => x = l ++ [10] ∧ l ≠ [] ∧ ∀ c ∈ l, c ≠ 10) hd chk hline line_record
    (by decide) src b hb hq hl ls ?_
  rw [hr]
  clear hr
  induction ls with
  | nil => rfl
  | cons l ls ih =>
    obtain ⟨h1, h2, h3⟩ := hs l (.head _)
    exact ⟨l ++ [10], _, rfl, ⟨⟨rfl, h1, h2⟩, by rw [List.length_append]; exact Nat.succ_le_succ h3⟩,
      ih fun l' h => hs l' (.tail _ h)⟩

end Chomp.Props
