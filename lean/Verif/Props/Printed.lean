import Verif.Lemmas.Printed
import Verif.Props.Patient
import Verif.Props.Records
import Verif.Props.Recursive
import Verif.Props.Retry

/-
C105: what was written is read back. `R t x` (a format) means that the text `x` is a way to write `t`;
`ReadsBack R F p` (Verif/Spec/Printed.lean) means that the parser `p` gets every value back from its text if
that is followed by something in `F`, and stops where the text ends.
-/

namespace Chomp.Props

open Spec Parsers

variable {σ I : Type}

/-! ## What it is good for -/

/-- `parse_only` returns the value which was written. -/
theorem C105_parse_only {R : Format T I} {F : Input I → Prop} {p : Parser σ I T E} (hp : ReadsBack R F p)
    (t : T) (x y : List I) (hx : R t x) (hy : F ⟨.endOfInput, y⟩) (w : σ) :
    ∃ w', parseOnly p (x ++ y) w = .ok (.ok t, w') := by
  obtain ⟨w', h⟩ := hp t x .endOfInput y w hx hy
  exact ⟨w', (C10_parse_only_ok p _ w w' t).2 ⟨_, h⟩⟩

/-- If a parser reads a format back, the format can be read in one way only: two values are not written in
the same way, and of two texts, none is the beginning of the other, as far as the rests are allowed. -/
theorem C105_unambiguous {R : Format T I} {F : Input I → Prop} {p : Parser σ I T E} (w : σ)
    (hp : ReadsBack R F p) (t t' : T) (x x' y y' : List I) (m : Mode) (hx : R t x) (hx' : R t' x')
    (hy : F ⟨m, y⟩) (hy' : F ⟨m, y'⟩) (e : x ++ y = x' ++ y') : t = t' ∧ x = x' ∧ y = y' := by
  obtain ⟨w1, h1⟩ := hp t x m y w hx hy
  obtain ⟨w2, h2⟩ := hp t' x' m y' w hx' hy'
  rw [e, h2] at h1
  cases h1
  exact ⟨rfl, List.append_cancel_right e, rfl⟩

/-- Where a value is followed by something allowed, the parser does nothing else: whatever it returns there
is this value, and it has stopped where its text ends. -/
theorem C105_only {R : Format T I} {F : Input I → Prop} {p : Parser σ I T E} (hp : ReadsBack R F p)
    (t : T) (x y : List I) (m : Mode) (hx : R t x) (hy : F ⟨m, y⟩) (w w' : σ) (r : ParseResult I T E)
    (h : p ⟨m, x ++ y⟩ w = .ok (r, w')) : r = .data ⟨m, y⟩ t := by
  obtain ⟨w1, h1⟩ := hp t x m y w hx hy
  rw [h] at h1
  cases h1
  rfl

/-- The same from a stream: however the data arrives, the call (repeated while it asks for it) returns the
value which was written, and the rest of the data is still there. -/
theorem C105_stream {S B : Type} [DataSource S I] [HonestSource S I] [Buffer B I] [LawfulBuffer B I]
    {rem : S → List I} {errs : S → Nat} (hd : Delivers S rem errs) (chk : Bool)
    {R : Format T I} {F : Input I → Prop} {p : Parser Unit I T E} (hp : ReadsBack R F p)
    (hb : Built streaming p) (s : Source S B) (h : Ready rem s) (t : T) (x y : List I)
    (he : ahead rem s = x ++ y) (hne : x ++ y ≠ []) (hx : R t x) (hy : F ⟨.endOfInput, y⟩)
    (hfit : Fits p s.buffer (ahead rem s)) :
    ∃ s', retry chk p s () = .ok ((.ok t, s'), ()) ∧ ahead rem s' = y ∧ Continues rem s s' := by
  have h1 := C51_retry hd chk hb s h (he ▸ hne) hfit
  obtain ⟨w', h2⟩ := hp t x .endOfInput y () hx hy
  rw [he, h2] at h1
  exact h1

theorem values_of_written {R : Format T I} {F : Input I → Prop} {p : Parser Unit I T E}
    (hp : ReadsBack R F p) (hF : ∀ i, Before R F i → F i) (hend : F ⟨.endOfInput, []⟩) (ts : List T)
    (x : List I) (hx : Written R ts x) : F ⟨.endOfInput, x⟩ ∧ Values p x ts [] := by
  induction ts generalizing x with
  | nil => cases hx; exact ⟨hend, .nil⟩
  | cons t ts ih =>
    obtain ⟨a, b, rfl, ha, hb⟩ := hx
    obtain ⟨h1, h2⟩ := ih b hb
    obtain ⟨_, e⟩ := hp t a .endOfInput b () ha h1
    exact ⟨hF _ ⟨t, a, b, ha, rfl, h1⟩, .cons e h2⟩

/-- Reading one value after the other from a stream until its end gives the values which were written, all
of them and in this order, and no error: with a growing buffer, whatever the sizes of the texts and however
they arrive. -/
theorem C105_records {S : Type} [DataSource S I] [HonestSource S I] {rem : S → List I}
    {errs : S → Nat} (hd : Delivers S rem errs) {K : Nat} (chk : Bool) {R : Format T I} {F : Input I → Prop}
    {p : Parser Unit I T E} (hp : ReadsBack R F p) (hF : ∀ i, Before R F i → F i)
    (hend : F ⟨.endOfInput, []⟩) (hr : Reader K p)
    (src : S) (extra : Nat → Nat) (hl : (rem src).length + max 1 K ≤ 2 ^ 62) (ts : List T)
    (hx : Written R ts (rem src)) :
    patient chk p (fun a t => .ok (a ++ [t]))
      (Source.withBuffer src (GrowingBuffer.withLimit extra 0 : GrowingBuffer I)) [] () = .ok (.ok ts, ()) :=
  (C88_growing hd chk hr src extra hl ts).2 (values_of_written hp hF hend ts _ hx).2

/-- The same with a buffer of fixed size, if each of the texts fits. -/
theorem C105_fixed {S : Type} [DataSource S I] [HonestSource S I] {rem : S → List I}
    {errs : S → Nat} (hd : Delivers S rem errs) (chk : Bool) {size K : Nat} {R : Format T I}
    {p : Parser Unit I T E} (hp : ReadsBack R Anything p) (hr : RecordParser K p) (hK : max 1 K ≤ size)
    (src : S) (b : FixedSizeBuffer I) (hb : FixedSizeBuffer.withSize size = .ok b)
    (hq : errs src = 0) (hl : (rem src).length + max 1 K ≤ usizeMax) (ts : List T)
    (hx : Written (fun t x => R t x ∧ x.length ≤ size) ts (rem src)) :
    records chk p (fun a t => .ok (a ++ [t])) (Source.withBuffer src b) [] () = .ok (.ok ts, ()) := by
  refine (C68_collect hd chk hr hK src b hb hq hl ts).2 ?_
  generalize rem src = x at hx
  clear hl
  induction ts generalizing x with
  | nil => cases hx; exact .nil
  | cons t ts ih =>
    obtain ⟨a, c, rfl, ⟨ha, hs⟩, hc⟩ := hx
    refine .cons ?_ (ih c hc)
    refine (C68_fits hr a c t ?_).2 hs
    obtain ⟨_, e⟩ := hp t a .default [] () ha trivial
    rw [List.append_nil] at e
    exact e

/-! ## Where formats come from: one rule for each function -/

/-- Fewer values, and fewer rests. -/
theorem C105_weaken {R R' : Format T I} {F F' : Input I → Prop} {p : Parser σ I T E} (hp : ReadsBack R F p)
    (hR : ∀ t x, R' t x → R t x) (hF : ∀ i, F' i → F i) : ReadsBack R' F' p :=
  fun t x m y w hx hy => hp t x m y w (hR t x hx) (hF _ hy)

theorem C105_ret (t : T) : ReadsBack (Format.nothing t) Anything (Parser.ret t : Parser σ I T E) := by
  rintro _ _ m y w ⟨rfl, rfl⟩ _
  exact ⟨w, rfl⟩

theorem C105_any : ReadsBack (Format.item fun _ => True) Anything (any : Parser σ I I (Error I)) := by
  rintro c _ m y w ⟨rfl, _⟩ _
  exact ⟨w, (C11_any m w).2 c y⟩

theorem C105_satisfy (v : Bool) (f : I → Bool) :
    ReadsBack (Format.item fun c => f c = true) Anything (satisfy v f : Parser σ I I (Error I)) := by
  rintro c _ m y w ⟨rfl, hc⟩ _
  exact ⟨w, (C11_satisfy v f m w).2.1 c y hc⟩

theorem C105_satisfy_with (v : Bool) (g : I → T) (f : T → Bool) :
    ReadsBack (Format.through g (Format.item fun c => f (g c) = true)) Anything
      (satisfyWith v g f : Parser σ I T (Error I)) := by
  rintro _ _ m y w ⟨c, rfl, rfl, hc⟩ _
  exact ⟨w, (C11_satisfy_with v g f m w).2.1 c y hc⟩

theorem C105_token [DecidableEq I] (v : Bool) (c : I) :
    ReadsBack (Format.item (· = c)) Anything (token v c : Parser σ I I (Error I)) := by
  rintro _ _ m y w ⟨rfl, rfl⟩ _
  exact ⟨w, (C11_token v _ m w).2.1 y⟩

theorem C105_not_token [DecidableEq I] (v : Bool) (c : I) :
    ReadsBack (Format.item (· ≠ c)) Anything (notToken v c : Parser σ I I (Error I)) := by
  rintro d _ m y w ⟨rfl, hc⟩ _
  exact ⟨w, (C11_not_token v c m w).2.1 d y hc⟩

theorem C105_string [DecidableEq I] (v : Bool) (s : List I) :
    ReadsBack (Format.text (· = s)) Anything (Parsers.string v s : Parser σ I (List I) (Error I)) := by
  rintro _ _ m y w ⟨rfl, rfl⟩ _
  exact ⟨w, C17_string_match v _ y m w⟩

theorem C105_take (n : Nat) :
    ReadsBack (Format.text (·.length = n)) Anything (take n : Parser σ I (List I) (Error I)) := by
  rintro _ x m y w ⟨rfl, rfl⟩ _
  exact ⟨w, C12_take_ok m x y w⟩

/-- The text of a `take_while` is any text of such items; then comes another item, or the end of the
input. -/
theorem C105_take_while (f : I → Bool) :
    ReadsBack (Format.text fun x => ∀ c ∈ x, f c = true) (Next fun c => f c = false)
      (takeWhile f : Parser σ I (List I) (Error I)) := by
  rintro _ x m y w ⟨rfl, hx⟩ hy
  refine ⟨w, ?_⟩
  rcases Next.split hy with ⟨rfl, rfl⟩ | ⟨c, r, rfl, hc⟩
  · rw [C13_take_while f .endOfInput x [] ⟨hx, nofun⟩, if_neg nofun]
  · rw [C13_take_while f m x (c :: r) ⟨hx, fun _ _ e => by cases e; exact hc⟩, if_neg (fun h => nomatch h.2)]

theorem C105_take_while1 (v : Bool) (f : I → Bool) :
    ReadsBack (Format.text fun x => x ≠ [] ∧ ∀ c ∈ x, f c = true) (Next fun c => f c = false)
      (takeWhile1 v f : Parser σ I (List I) (Error I)) := by
  rintro _ x m y w ⟨rfl, hn, hx⟩ hy
  refine ⟨w, ?_⟩
  rcases Next.split hy with ⟨rfl, rfl⟩ | ⟨c, r, rfl, hc⟩
  · rw [C14_take_while1 v f .endOfInput x [] hn ⟨hx, nofun⟩, if_neg nofun]
  · rw [C14_take_while1 v f m x (c :: r) hn ⟨hx, fun _ _ e => by cases e; exact hc⟩,
      if_neg (fun h => nomatch h.2)]

/-- `take_till` needs the item at which it stops. -/
theorem C105_take_till (f : I → Bool) :
    ReadsBack (Format.text fun x => ∀ c ∈ x, f c = false) (fun i => i.buf ≠ [] ∧ Next (fun c => f c = true) i)
      (takeTill f : Parser σ I (List I) (Error I)) := by
  rintro _ x m y w ⟨rfl, hx⟩ ⟨hn, hy⟩
  refine ⟨w, ?_⟩
  rcases Next.split hy with ⟨rfl, _⟩ | ⟨c, r, rfl, hc⟩
  · exact absurd rfl hn
  · exact C15_take_till f m x c r hx hc w

/-- `scan` needs the item at which its function says `None`: after the text, it is in the state `e`. -/
theorem C105_scan {A : Type} (a e : A) (f : A → I → Option A) :
    ReadsBack (Format.text fun x => x.foldlM f a = some e)
      (fun i => i.buf ≠ [] ∧ Next (fun c => f e c = none) i) (scan a f : Parser σ I (List I) (Error I)) ∧
    ReadsBack (fun u x => u = (x, e) ∧ x.foldlM f a = some e)
      (fun i => i.buf ≠ [] ∧ Next (fun c => f e c = none) i)
      (runScanner a f : Parser σ I (List I × A) (Error I)) := by
  constructor
  · rintro _ x m y w ⟨rfl, hx⟩ ⟨hn, hy⟩
    refine ⟨w, ?_⟩
    rcases Next.split hy with ⟨rfl, _⟩ | ⟨c, r, rfl, hc⟩
    · exact absurd rfl hn
    · exact (C16_scan a e f m x c r hx hc w).1
  · rintro _ x m y w ⟨rfl, hx⟩ ⟨hn, hy⟩
    refine ⟨w, ?_⟩
    rcases Next.split hy with ⟨rfl, _⟩ | ⟨c, r, rfl, hc⟩
    · exact absurd rfl hn
    · exact (C16_scan a e f m x c r hx hc w).2

/-- `take_remainder` takes everything there is. -/
theorem C105_take_remainder : ReadsBack (Format.text fun _ => True) (fun i => i.buf = [])
    (takeRemainder : Parser σ I (List I) (Error I)) := by
  rintro _ x m y w ⟨rfl, _⟩ hy
  obtain rfl : y = [] := hy
  exact ⟨w, by rw [List.append_nil, Parsers.takeRemainder_eq]⟩

/-- The end of the input can be asked for. -/
theorem C105_eof (v : Bool) : ReadsBack (Format.nothing ()) (Next fun _ => False)
    (eof v : Parser σ I Unit (Error I)) := by
  rintro _ _ m y w ⟨_, rfl⟩ hy
  refine ⟨w, ?_⟩
  rcases Next.split hy with ⟨rfl, rfl⟩ | ⟨_, _, _, h⟩
  · rw [List.append_nil, Parsers.eof_eq]; rfl
  · exact h.elim

theorem C105_skip_whitespace : ReadsBack (fun _ x => ∀ c ∈ x, Ascii.isWhitespace c = true)
    (Next fun c => Ascii.isWhitespace c = false)
    (Ascii.skipWhitespace : Parser σ UInt8 Unit (Error UInt8)) := by
  intro _ x m y w hx hy
  obtain ⟨w', h⟩ := C105_take_while (σ := σ) Ascii.isWhitespace x x m y w ⟨rfl, hx⟩ hy
  exact ⟨w', by unfold Ascii.skipWhitespace; unfold Parser.map; rw [M.bind_apply, h, Res.bind_ok]; rfl⟩

/-- Numbers of an integer type which are written by Lean's own printer, with no digit after them. -/
theorem C105_decimal (v : Bool) (t : Ascii.IntTy) :
    ReadsBack (fun (z : Int) x => ∃ n : Nat, z = n ∧ (n : Int) ≤ t.max ∧ x = printNat n)
      (fun i => Ends i.mode i.buf) (Ascii.decimal v t.num : Parser σ UInt8 Int (Error UInt8)) := by
  rintro _ _ m y w ⟨n, rfl, hn, rfl⟩ hy
  exact ⟨w, C40_decimal v t m n y w hn hy⟩

theorem C105_signed (v : Bool) (t : Ascii.IntTy) (hs : t.signed = true) :
    ReadsBack (fun (z : Int) x => t.min < z ∧ z ≤ t.max ∧ x = printInt z)
      (fun i => Ends i.mode i.buf)
      (Ascii.signed v t.num (Ascii.decimal v t.num) : Parser σ UInt8 Int (Error UInt8)) := by
  rintro z _ m y w ⟨h1, h2, rfl⟩ hy
  exact ⟨w, C40_signed v t hs m z y w ⟨h1, h2⟩ hy⟩

/-- One after the other: what the second value is written like, and what follows, must be allowed after the
first. -/
theorem C105_bind {R : Format T I} {S : T → Format U I} {F G : Input I → Prop} {p : Parser σ I T E}
    {f : T → Parser σ I U V} (conv : E → V) (hp : ReadsBack R G p) (hf : ∀ t, ReadsBack (S t) F (f t))
    (hG : ∀ t x i, R t x → Before (S t) F i → G i) :
    ReadsBack (Format.seq R S) F (Parser.bind conv p f) := by
  rintro u _ m z w ⟨t, x, y, rfl, hx, hy⟩ hz
  rw [List.append_assoc]
  obtain ⟨w1, h1⟩ := hp t x m (y ++ z) w hx (hG t x _ hx ⟨u, y, z, hy, rfl, hz⟩)
  obtain ⟨w2, h2⟩ := hf t u y m z w1 hy hz
  exact ⟨w2, by rw [bind_data h1, h2]⟩

theorem C105_then {R : Format T I} {S : Format U I} {F G : Input I → Prop} {p : Parser σ I T E}
    {q : Parser σ I U V} (conv : E → V) (hp : ReadsBack R G p) (hq : ReadsBack S F q)
    (hG : ∀ i, Before S F i → G i) :
    ReadsBack (Format.seq R fun _ => S) F (Parser.andThen conv p q) := by
  rw [andThen_bind]
  exact C105_bind conv hp (fun _ => hq) (fun _ _ i _ => hG i)

/-- A value, then something else of which nothing is kept: `let t = p; q; ret t` in a `parse!` block. -/
theorem C105_followed {R : Format T I} {S : Format U I} {F G : Input I → Prop} {p : Parser σ I T E}
    {q : Parser σ I U V} (conv : E → V) (conv' : V → V) (hp : ReadsBack R G p) (hq : ReadsBack S F q)
    (hG : ∀ i, Before S F i → G i) :
    ReadsBack (Format.followed R S) F
      (Parser.bind conv p fun t => Parser.andThen conv' q (Parser.ret t)) := by
  rintro t _ m z w ⟨x, y, rfl, hx, u, hy⟩ hz
  rw [List.append_assoc]
  obtain ⟨w1, h1⟩ := hp t x m (y ++ z) w hx (hG _ ⟨u, y, z, hy, rfl, hz⟩)
  obtain ⟨w2, h2⟩ := hq u y m z w1 hy hz
  exact ⟨w2, by rw [bind_data h1, andThen_bind, bind_data h2]; rfl⟩

theorem C105_map {R : Format T I} {F : Input I → Prop} {p : Parser σ I T E} (f : T → U)
    (hp : ReadsBack R F p) : ReadsBack (Format.through f R) F (Parser.map p f) := by
  rintro _ x m y w ⟨t, rfl, hx⟩ hy
  obtain ⟨w1, h1⟩ := hp t x m y w hx hy
  exact ⟨w1, by unfold Parser.map; rw [M.bind_apply, h1, Res.bind_ok]; rfl⟩

theorem C105_map_err {R : Format T I} {F : Input I → Prop} {p : Parser σ I T E} (f : E → V)
    (hp : ReadsBack R F p) : ReadsBack R F (Parser.mapErr p f) := by
  intro t x m y w hx hy
  obtain ⟨w1, h1⟩ := hp t x m y w hx hy
  exact ⟨w1, by unfold Parser.mapErr; rw [M.bind_apply, h1, Res.bind_ok]; rfl⟩

theorem C105_inspect {R : Format T I} {F : Input I → Prop} {p : Parser σ I T E} (f : T → M σ Unit)
    (hf : ∀ t w, ∃ w', f t w = .ok ((), w')) (hp : ReadsBack R F p) : ReadsBack R F (Parser.inspect p f) := by
  intro t x m y w hx hy
  obtain ⟨w1, h1⟩ := hp t x m y w hx hy
  obtain ⟨w2, h2⟩ := hf t w1
  refine ⟨w2, ?_⟩
  unfold Parser.inspect
  rw [M.bind_apply, h1, Res.bind_ok, C04_inspect]
  dsimp only
  rw [h2, Res.bind_ok]

/-- Two formats: the first parser has to fail on what is written in the second, or to read it as well. -/
theorem C105_or {R S : Format T I} {F : Input I → Prop} {p q : Parser σ I T E}
    (hp : ReadsBack R F p) (hq : ReadsBack S F q) (hr : Refuses (Before S F) p) :
    ReadsBack (Format.either R S) F (Comb.or p q) := by
  rintro t x m y w (hx | hx) hy
  · obtain ⟨w1, h1⟩ := hp t x m y w hx hy
    exact ⟨w1, C20_or_ok p q _ _ t w w1 h1⟩
  · rcases hr ⟨m, x ++ y⟩ w ⟨t, x, y, hx, rfl, hy⟩ with ⟨b, e, w1, h1⟩ | ⟨hm, n, w1, h1⟩
    · obtain ⟨w2, h2⟩ := hq t x m y w1 hx hy
      exact ⟨w2, by rw [C20_or_err p q _ b e w w1 h1, h2]⟩
    · obtain ⟨w2, h2⟩ := hq t x m y w1 hx hy
      exact ⟨w2, by rw [C20_or_incomplete p q m _ n w w1 h1, if_pos hm, h2]⟩

/-- A value or nothing at all, for the default. -/
theorem C105_option {R : Format T I} {F : Input I → Prop} {p : Parser σ I T E} (d : T)
    (hp : ReadsBack R F p) (hr : Refuses F p) :
    ReadsBack (Format.either R (Format.nothing d)) F (Comb.option p d) := by
  rw [C20_option_is_or]
  refine C105_or hp (C105_weaken (C105_ret d) (fun _ _ h => h) (fun _ _ => trivial)) ?_
  rintro i w ⟨_, _, y, ⟨_, rfl⟩, e, hy⟩
  refine hr i w ?_
  obtain ⟨m, b⟩ := i
  cases e
  exact hy

/-- Lists: an item may be followed by another one or by what follows the list, and at the end of the list
there is something which cannot be taken for an item. -/
theorem C105_many {R : Format T I} {F G : Input I → Prop} {p : Parser σ I T E} (hp : ReadsBack R G p)
    (hF : ∀ i, F i → G i) (hG : ∀ i, Before R G i → G i) (hr : Refuses F p) :
    ReadsBack (Format.list R) F (Comb.many (Collect.vec T) p) := by
  intro ts x m y w hx hy
  obtain ⟨_, w1, h1⟩ := ReadsBack.reps hp hG ts x m y w hx (hF _ hy)
  rcases hr ⟨m, y⟩ w1 hy with ⟨b, e, w2, h2⟩ | ⟨hm, n, w2, h2⟩
  · exact ⟨w2, (C23_many_ok p _ _ w w2 ts).2 ⟨w1, h1, .inl ⟨b, e, h2⟩⟩⟩
  · exact ⟨w2, (C23_many_ok p _ _ w w2 ts).2 ⟨w1, h1, .inr ⟨hm, n, h2⟩⟩⟩

/-- Lists of at least `k` items, with `many(k.., p)`. `many1` is `many(1.., p)`. -/
theorem C105_many_from (k : Nat) {R : Format T I} {F G : Input I → Prop} {p : Parser σ I T E}
    (hp : ReadsBack R G p) (hF : ∀ i, F i → G i) (hG : ∀ i, Before R G i → G i) (hr : Refuses F p) :
    ReadsBack (Format.sized (k ≤ ·) R) F (Bounded.many (.from_ k) (Collect.vec T) p) := by
  rintro ts x m y w ⟨hk, hx⟩ hy
  obtain ⟨_, w1, h1⟩ := ReadsBack.reps hp hG ts x m y w hx (hF _ hy)
  rcases hr ⟨m, y⟩ w1 hy with ⟨b, e, w2, h2⟩ | ⟨hm, n, w2, h2⟩
  · exact ⟨w2, (C24_many_from k p _ w (.ok (.data ⟨m, y⟩ ts, w2)) nofun).2 (.stop_error h1 nofun h2 hk)⟩
  · exact ⟨w2, (C24_many_from k p _ w (.ok (.data ⟨m, y⟩ ts, w2)) nofun).2 (.stop_last h1 nofun h2 hk hm)⟩

theorem C105_many1 {R : Format T I} {F G : Input I → Prop} {p : Parser σ I T E}
    (hp : ReadsBack R G p) (hF : ∀ i, F i → G i) (hG : ∀ i, Before R G i → G i) (hr : Refuses F p) :
    ReadsBack (Format.sized (1 ≤ ·) R) F (Comb.many1 (Collect.vec T) p) :=
  C105_many_from 1 hp hF hG hr

/-- Lists of known length: nothing is needed at the end. -/
theorem C105_count (k : Nat) {R : Format T I} {G : Input I → Prop} {p : Parser σ I T E}
    (hp : ReadsBack R G p) (hG : ∀ i, Before R G i → G i) :
    ReadsBack (Format.sized (· = k) R) G (Comb.count k (Collect.vec T) p) := by
  rintro ts x m y w ⟨hk, hx⟩ hy
  obtain ⟨_, w1, h1⟩ := ReadsBack.reps hp hG ts x m y w hx hy
  exact ⟨w1, (C25_count_ok k p _ _ w w1 ts).2 ⟨hk, h1⟩⟩

/-- Lists with separators. -/
theorem C105_sep_by {R : Format T I} {S : Format V I} {F G H : Input I → Prop} {p : Parser σ I T E}
    {sep : Parser σ I V N} (conv : N → E) (hp : ReadsBack R G p) (hs : ReadsBack S H sep)
    (hF : ∀ i, F i → G i) (hG : ∀ i, Before S (Before R G) i → G i) (hH : ∀ i, Before R G i → H i)
    (hr : Refuses F p) (hrs : Refuses F sep) :
    ReadsBack (Format.separated R S) F (Comb.sepBy conv (Collect.vec T) p sep) := by
  intro ts x m y w hx hy
  obtain ⟨w1, h1⟩ := ReadsBack.sepReps conv hp hs hG hH ts x m y w hx (hF _ hy)
  have ha : Refuses F (attempt p (sepThen conv p sep) ts) := by
    cases ts with
    | nil => exact hr
    | cons _ _ => exact Refuses.sepThen conv hrs
  rcases ha ⟨m, y⟩ w1 hy with ⟨b, e, w2, h2⟩ | ⟨hm, n, w2, h2⟩
  · exact ⟨w2, (C31_sep_by_ok conv p sep _ _ w w2 ts).2 ⟨w1, h1, .inl ⟨b, e, h2⟩⟩⟩
  · exact ⟨w2, (C31_sep_by_ok conv p sep _ _ w w2 ts).2 ⟨w1, h1, .inr ⟨hm, n, h2⟩⟩⟩

/-- Lists of at least one item with separators: what follows may look like an item. -/
theorem C105_sep_by1 {R : Format T I} {S : Format V I} {F G H : Input I → Prop} {p : Parser σ I T E}
    {sep : Parser σ I V N} (conv : N → E) (hp : ReadsBack R G p) (hs : ReadsBack S H sep)
    (hF : ∀ i, F i → G i) (hG : ∀ i, Before S (Before R G) i → G i) (hH : ∀ i, Before R G i → H i)
    (hrs : Refuses F sep) :
    ReadsBack (fun ts x => ts ≠ [] ∧ Format.separated R S ts x) F
      (Comb.sepBy1 conv (Collect.vec T) p sep) := by
  rintro ts x m y w ⟨hn, hx⟩ hy
  obtain ⟨w1, h1⟩ := ReadsBack.sepReps conv hp hs hG hH ts x m y w hx (hF _ hy)
  have hl : 1 ≤ ts.length := List.length_pos_iff.2 hn
  have ha : Refuses F (attempt p (sepThen conv p sep) ts) := by
    cases ts with
    | nil => exact absurd rfl hn
    | cons _ _ => exact Refuses.sepThen conv hrs
  rcases ha ⟨m, y⟩ w1 hy with ⟨b, e, w2, h2⟩ | ⟨hm, n, w2, h2⟩
  · exact ⟨w2, (C32_sep_by1 conv p sep _ w (.ok (.data ⟨m, y⟩ ts, w2)) nofun).2 (.stop_error h1 h2 hl)⟩
  · exact ⟨w2, (C32_sep_by1 conv p sep _ w (.ok (.data ⟨m, y⟩ ts, w2)) nofun).2 (.stop_last h1 h2 hl hm)⟩

/-- Lists which end with something the second parser reads. It must not succeed where an item begins. -/
theorem C105_many_till {R : Format T I} {S : Format V I} {F G : Input I → Prop} {p : Parser σ I T E}
    {end_ : Parser σ I V N} (hp : ReadsBack R G p) (he : ReadsBack S F end_)
    (hF : ∀ i, Before S F i → G i) (hG : ∀ i, Before R G i → G i) (hd : Declines (Before R G) end_) :
    ReadsBack (Format.followed (Format.list R) S) F (Comb.manyTill (Collect.vec T) p end_) := by
  rintro ts _ m z w ⟨x, y, rfl, hx, u, hy⟩ hz
  rw [List.append_assoc]
  obtain ⟨_, w1, h1⟩ :=
    ReadsBack.repsTill hp hG hd ts x m (y ++ z) w hx (hF _ ⟨u, y, z, hy, rfl, hz⟩)
  obtain ⟨w2, h2⟩ := he u y m z w1 hy hz
  exact ⟨w2, (C33_many_till_ok p end_ _ _ w w2 ts).2 ⟨_, w1, u, h1, h2⟩⟩

/-- Space and comments: what is skipped. -/
theorem C105_skip_many {R : Format T I} {F G : Input I → Prop} {p : Parser σ I T E} (hp : ReadsBack R G p)
    (hF : ∀ i, F i → G i) (hG : ∀ i, Before R G i → G i) (hr : Refuses F p) :
    ReadsBack (Format.some (Format.list R)) F (Comb.skipMany p) ∧
    ReadsBack (Format.some (Format.sized (1 ≤ ·) R)) F (Comb.skipMany1 p) := by
  constructor
  · rintro _ x m y w ⟨ts, hx⟩ hy
    obtain ⟨w1, h1⟩ := C105_many hp hF hG hr ts x m y w hx hy
    exact ⟨w1, by rw [(C28_skip_many_unbounded p _ w).1, h1, Res.bind_ok]; rfl⟩
  · rintro _ x m y w ⟨ts, hx⟩ hy
    obtain ⟨w1, h1⟩ := C105_many1 hp hF hG hr ts x m y w hx hy
    exact ⟨w1, by rw [(C28_skip_many_unbounded p _ w).2, h1, Res.bind_ok]; rfl⟩

theorem C105_matched_by {R : Format T I} {F : Input I → Prop} {p : Parser σ I T E} (hp : ReadsBack R F p) :
    ReadsBack (Format.withText R) F (Comb.matchedBy p) := by
  rintro ⟨x', t⟩ x m y w ⟨e, hx⟩ hy
  obtain rfl : x' = x := e
  obtain ⟨w1, h1⟩ := hp t x' m y w hx hy
  exact ⟨w1, C22_matched_by_ok p m m _ y t w w1 h1⟩

/-- Functions which call themselves and each other: values can be nested as deep as one likes. `R n k` is how
function `k`'s values are written if they are nested less than `n` deep. -/
theorem C105_recursive {K : Type} {T E : K → Type} {a : Allow} (B : Fns σ I T E → Fns σ I T E)
    (hB : ∀ k, Body a (fun q => B q k)) (p : Fns σ I T E) (hp : Means B p)
    (R : Nat → ∀ k, Format (T k) I) (F : ∀ _ : K, Input I → Prop) (h0 : ∀ k t x, ¬ R 0 k t x)
    (hs : ∀ n, (∀ k, ReadsBack (R n k) (F k) (p k)) → ∀ k, ReadsBack (R (n + 1) k) (F k) (B p k)) (k : K) :
    ReadsBack (fun t x => ∃ n, R n k t x) (F k) (p k) := by
  have h : ∀ n k, ReadsBack (R n k) (F k) (p k) := by
    intro n
    induction n with
    | zero => exact fun k t x _ _ _ hx => absurd hx (h0 k t x)
    | succ n ih =>
      intro k
      rw [C90_equation B hB p hp k]
      exact hs n ih k
  rintro t x m y w ⟨n, hx⟩ hy
  exact h n k t x m y w hx hy

/-! ## When parsers fail -/

theorem C105_refuses_weaken {F F' : Input I → Prop} {p : Parser σ I T E} (hp : Refuses F p)
    (hF : ∀ i, F' i → F i) : Refuses F' p :=
  fun i w hi => hp i w (hF i hi)

theorem C105_refuses_err (F : Input I → Prop) (e : E) : Refuses F (Parser.err e : Parser σ I T E) :=
  fun i w _ => .inl ⟨i.buf, e, w, rfl⟩

theorem C105_refuses_satisfy (v : Bool) (f : I → Bool) :
    Refuses (Next fun c => f c = false) (satisfy v f : Parser σ I I (Error I)) := by
  rintro ⟨m, b⟩ w hi
  rcases Next.split hi with ⟨rfl, rfl⟩ | ⟨c, r, rfl, hc⟩
  · exact .inr ⟨rfl, 1, w, (C11_satisfy v f _ w).1⟩
  · exact .inl ⟨_, _, w, (C11_satisfy v f m w).2.2 c r hc⟩

theorem C105_refuses_token [DecidableEq I] (v : Bool) (t : I) :
    Refuses (Next (· ≠ t)) (token v t : Parser σ I I (Error I)) := by
  rintro ⟨m, b⟩ w hi
  rcases Next.split hi with ⟨rfl, rfl⟩ | ⟨c, r, rfl, hc⟩
  · exact .inr ⟨rfl, 1, w, (C11_token v t _ w).1⟩
  · exact .inl ⟨_, _, w, (C11_token v t m w).2.2 c r hc⟩

theorem C105_refuses_not_token [DecidableEq I] (v : Bool) (t : I) :
    Refuses (Next (· = t)) (notToken v t : Parser σ I I (Error I)) := by
  rintro ⟨m, b⟩ w hi
  rcases Next.split hi with ⟨rfl, rfl⟩ | ⟨c, r, rfl, rfl⟩
  · exact .inr ⟨rfl, 1, w, (C11_not_token v t _ w).1⟩
  · exact .inl ⟨_, _, w, (C11_not_token v c m w).2.2 r⟩

/-- At the end of the input. -/
theorem C105_refuses_any : Refuses (Next fun _ => False) (any : Parser σ I I (Error I)) := by
  rintro ⟨m, b⟩ w hi
  rcases Next.split hi with ⟨rfl, rfl⟩ | ⟨_, _, _, h⟩
  · exact .inr ⟨rfl, 1, w, (C11_any _ w).1⟩
  · exact h.elim

theorem C105_refuses_take_while1 (v : Bool) (f : I → Bool) :
    Refuses (Next fun c => f c = false) (takeWhile1 v f : Parser σ I (List I) (Error I)) := by
  rintro ⟨m, b⟩ w hi
  rcases Next.split hi with ⟨rfl, rfl⟩ | ⟨c, r, rfl, hc⟩
  · exact .inr ⟨rfl, 1, w, C14_take_while1_empty v f _ w⟩
  · exact .inl ⟨_, _, w, C14_take_while1_err v f m c r hc w⟩

theorem C105_refuses_decimal (v : Bool) (N : Ascii.Num T) :
    Refuses (Next fun c => ¬ (byte '0' ≤ c ∧ c ≤ byte '9'))
      (Ascii.decimal v N : Parser σ UInt8 T (Error UInt8)) := by
  rintro ⟨m, b⟩ w hi
  rcases Next.split hi with ⟨rfl, rfl⟩ | ⟨c, r, rfl, hc⟩
  · exact .inr ⟨rfl, 1, w, (C39_incomplete v N [] w nofun).2⟩
  · exact .inl ⟨_, _, w, C39_error v N m c r w hc⟩

/-- `string` asks for as much as it needs, before it compares: on an input which may go on, it does not fail
before it has that much. -/
theorem C105_refuses_string [DecidableEq I] (v : Bool) (s : List I) :
    Refuses (fun i => ¬ s <+: i.buf ∧ (i.mode = .default → s.length ≤ i.buf.length))
      (Parsers.string v s : Parser σ I (List I) (Error I)) := by
  rintro ⟨m, b⟩ w ⟨hp, hl⟩
  by_cases h : b.length < s.length
  · have hm : m = .endOfInput := by
      cases m with
      | default => exact absurd (hl rfl) (by dsimp only; omega)
      | endOfInput => rfl
    exact .inr ⟨hm, _, w, C17_string_short v s b m h w⟩
  · have key : ∀ (s b : List I), s.length ≤ b.length → ¬ s <+: b →
        ∃ x a c s' r, s = x ++ a :: s' ∧ b = x ++ c :: r ∧ a ≠ c ∧ s'.length ≤ r.length := by
      intro s
      induction s with
      | nil => intro b _ h; exact absurd (List.nil_prefix) h
      | cons a s ih =>
        intro b hl hp
        cases b with
        | nil => simp at hl
        | cons c r =>
          by_cases hc : a = c
          · subst hc
            obtain ⟨x, a', c', s', r', h1, h2, h3, h4⟩ := ih r (by simpa using hl)
              (fun h => hp ((List.cons_prefix_cons).2 ⟨rfl, h⟩))
            exact ⟨a :: x, a', c', s', r', by rw [h1]; rfl, by rw [h2]; rfl, h3, h4⟩
          · exact ⟨[], a, c, s, r, rfl, rfl, hc, by simpa using hl⟩
    obtain ⟨x, a, c, s', r, rfl, rfl, hac, hl'⟩ := key s b (by omega) hp
    have e := C17_string_mismatch v x s' r a c m hac hl' w
    cases v with
    | false => exact .inl ⟨_, _, w, e⟩
    | true => exact .inl ⟨_, _, w, e⟩

/-- If the first parser fails, or the second one after what the first reads. -/
theorem C105_refuses_bind {R : Format T I} {F G : Input I → Prop} {H : T → Input I → Prop}
    {p : Parser σ I T E} {f : T → Parser σ I U V} (conv : E → V) (hp : Refuses F p) (hr : ReadsBack R G p)
    (hf : ∀ t, Refuses (H t) (f t)) :
    Refuses (fun i => F i ∨ ∃ t x y, R t x ∧ i.buf = x ++ y ∧ G ⟨i.mode, y⟩ ∧ H t ⟨i.mode, y⟩)
      (Parser.bind conv p f) := by
  rintro ⟨m, b⟩ w (hi | ⟨t, x, y, hx, e, hg, hh⟩)
  · rcases hp _ w hi with ⟨b, e, w', h⟩ | ⟨hm, n, w', h⟩
    · exact .inl ⟨b, _, w', bind_error h conv f⟩
    · exact .inr ⟨hm, n, w', bind_incomplete h conv f⟩
  · obtain rfl : b = x ++ y := e
    obtain ⟨w1, h1⟩ := hr t x m y w hx hg
    rcases hf t _ w1 hh with ⟨b, e, w', h⟩ | ⟨hm, n, w', h⟩
    · exact .inl ⟨b, _, w', by rw [bind_data h1]; exact h⟩
    · exact .inr ⟨hm, n, w', by rw [bind_data h1]; exact h⟩

theorem C105_refuses_first {F : Input I → Prop} {p : Parser σ I T E} (conv : E → V) (hp : Refuses F p) :
    (∀ f : T → Parser σ I U V, Refuses F (Parser.bind conv p f)) ∧
    ∀ q : Parser σ I U V, Refuses F (Parser.andThen conv p q) := by
  have h : ∀ f : T → Parser σ I U V, Refuses F (Parser.bind conv p f) := by
    intro f i w hi
    rcases hp i w hi with ⟨b, e, w', h⟩ | ⟨hm, n, w', h⟩
    · exact .inl ⟨b, _, w', bind_error h conv f⟩
    · exact .inr ⟨hm, n, w', bind_incomplete h conv f⟩
  exact ⟨h, fun q => by rw [andThen_bind]; exact h _⟩

theorem C105_refuses_map {F : Input I → Prop} {p : Parser σ I T E} (f : T → U) (hp : Refuses F p) :
    Refuses F (Parser.map p f) := by
  intro i w hi
  rcases hp i w hi with ⟨b, e, w', h⟩ | ⟨hm, n, w', h⟩
  · exact .inl ⟨b, e, w', by unfold Parser.map; rw [M.bind_apply, h, Res.bind_ok]; rfl⟩
  · exact .inr ⟨hm, n, w', by unfold Parser.map; rw [M.bind_apply, h, Res.bind_ok]; rfl⟩

theorem C105_refuses_or {F : Input I → Prop} {p q : Parser σ I T E} (hp : Refuses F p) (hq : Refuses F q) :
    Refuses F (Comb.or p q) := by
  rintro ⟨m, b⟩ w hi
  rcases hp _ w hi with ⟨b', e, w', h⟩ | ⟨hm, n, w', h⟩
  · rw [C20_or_err p q _ b' e w w' h]
    exact hq _ w' hi
  · rw [C20_or_incomplete p q m b n w w' h, if_pos hm]
    exact hq _ w' hi

theorem C105_refuses_many1 {F : Input I → Prop} {p : Parser σ I T E} (hp : Refuses F p) :
    Refuses F (Comb.many1 (Collect.vec T) p) := by
  intro i w hi
  rcases hp i w hi with ⟨b, e, w', h⟩ | ⟨hm, n, w', h⟩
  · exact .inl ⟨b, e, w', (C24_many1 p i w (.ok (.error b e, w')) nofun).2 (.error .nil nofun h Nat.zero_lt_one)⟩
  · exact .inr ⟨hm, n, w', (C24_many1 p i w (.ok (.incomplete n, w')) nofun).2 (.incomplete .nil nofun h (.inl Nat.zero_lt_one))⟩

theorem C105_refuses_sep_by1 {F : Input I → Prop} {p : Parser σ I T E} {sep : Parser σ I V N} (conv : N → E)
    (hp : Refuses F p) : Refuses F (Comb.sepBy1 conv (Collect.vec T) p sep) := by
  intro i w hi
  rcases hp i w hi with ⟨b, e, w', h⟩ | ⟨hm, n, w', h⟩
  · exact .inl ⟨b, e, w', (C32_first_fails conv p sep i w w').1 b e h⟩
  · exact .inr ⟨hm, n, w', (C32_first_fails conv p sep i w w').2 n h⟩

theorem C105_declines {F : Input I → Prop} {p : Parser σ I T E} (h : Refuses F p) : Declines F p :=
  Refuses.declines h

end Chomp.Props
