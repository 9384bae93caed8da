import Verif.Lemmas.Basic

/-
C11-C18: the primitive parsers (src/parsers.rs).

`p i w = .ok (r, w)` says: `p` returns `r`, does not panic, and leaves the captured state `w` alone.
-/

namespace Chomp.Props

open Parsers

/-! ### C11 single item parsers -/

/-- `any` -/
theorem C11_any (m : Mode) (w : σ) :
    (any ⟨m, ([] : List I)⟩ w = .ok (.incomplete 1, w)) ∧
    ∀ (c : I) (r : List I), any ⟨m, c :: r⟩ w = .ok (.data ⟨m, r⟩ c, w) :=
  ⟨rfl, fun _ _ => rfl⟩

/-- `satisfy` -/
theorem C11_satisfy (v : Bool) (f : I → Bool) (m : Mode) (w : σ) :
    (satisfy v f ⟨m, []⟩ w = .ok (.incomplete 1, w)) ∧
    (∀ (c : I) (r : List I), f c = true →
      satisfy v f ⟨m, c :: r⟩ w = .ok (.data ⟨m, r⟩ c, w)) ∧
    (∀ (c : I) (r : List I), f c = false →
      satisfy v f ⟨m, c :: r⟩ w =
        .ok (.error (c :: r) (if v then .unexpected else .generic), w)) := by
  refine ⟨rfl, ?_, ?_⟩ <;> intro c r h <;> rw [satisfy_eq] <;> simp [h, Err.unexpected]

/-- `satisfy_with`: the mapped item is tested and returned. -/
theorem C11_satisfy_with (v : Bool) (f : I → T) (p : T → Bool) (m : Mode) (w : σ) :
    (satisfyWith v f p ⟨m, []⟩ w = .ok (.incomplete 1, w)) ∧
    (∀ (c : I) (r : List I), p (f c) = true →
      satisfyWith v f p ⟨m, c :: r⟩ w = .ok (.data ⟨m, r⟩ (f c), w)) ∧
    (∀ (c : I) (r : List I), p (f c) = false →
      satisfyWith v f p ⟨m, c :: r⟩ w =
        .ok (.error (c :: r) (if v then .unexpected else .generic), w)) := by
  refine ⟨rfl, ?_, ?_⟩ <;> intro c r h <;> rw [satisfyWith_eq] <;> simp [h, Err.unexpected]

/-- `token` -/
theorem C11_token [DecidableEq I] (v : Bool) (t : I) (m : Mode) (w : σ) :
    (token v t ⟨m, []⟩ w = .ok (.incomplete 1, w)) ∧
    (∀ r, token v t ⟨m, t :: r⟩ w = .ok (.data ⟨m, r⟩ t, w)) ∧
    (∀ c r, c ≠ t → token v t ⟨m, c :: r⟩ w =
        .ok (.error (c :: r) (if v then .expected t else .generic), w)) := by
  refine ⟨rfl, ?_, ?_⟩
  · intro r; rw [token_eq]; simp
  · intro c r h; rw [token_eq]; simp [Ne.symm h, Err.expected]

/-- `not_token` -/
theorem C11_not_token [DecidableEq I] (v : Bool) (t : I) (m : Mode) (w : σ) :
    (notToken v t ⟨m, []⟩ w = .ok (.incomplete 1, w)) ∧
    (∀ c r, c ≠ t → notToken v t ⟨m, c :: r⟩ w = .ok (.data ⟨m, r⟩ c, w)) ∧
    (∀ r, notToken v t ⟨m, t :: r⟩ w =
        .ok (.error (t :: r) (if v then .unexpected else .generic), w)) := by
  refine ⟨rfl, ?_, ?_⟩
  · intro c r h; rw [notToken_eq]; simp [Ne.symm h]
  · intro r; rw [notToken_eq]; simp [Err.unexpected]

/-- `peek_next` looks without consuming; `peek` never fails. -/
theorem C11_peek (m : Mode) (w : σ) :
    (peekNext ⟨m, ([] : List I)⟩ w = .ok (.incomplete 1, w)) ∧
    (∀ (c : I) (r : List I), peekNext ⟨m, c :: r⟩ w = .ok (.data ⟨m, c :: r⟩ c, w)) ∧
    (peek ⟨m, ([] : List I)⟩ w = .ok (.data ⟨m, []⟩ none, w)) ∧
    (∀ (c : I) (r : List I), peek ⟨m, c :: r⟩ w = .ok (.data ⟨m, c :: r⟩ (some c), w)) :=
  ⟨rfl, fun _ _ => rfl, rfl, fun _ _ => rfl⟩

example : satisfy true (· == 'a') ⟨.default, ['b', 'a']⟩ () =
    .ok (.error ['b', 'a'] .unexpected, ()) :=
  (C11_satisfy true _ .default ()).2.2 'b' ['a'] rfl

example : token false 'a' ⟨.endOfInput, ['a', 'b']⟩ () =
    .ok (.data ⟨.endOfInput, ['b']⟩ 'a', ()) :=
  (C11_token false _ _ ()).2.1 _

/-! ### C12 take -/

/-- `take(n)` with enough input: it splits after exactly `n` items. -/
theorem C12_take_ok (m : Mode) (x y : List I) (w : σ) :
    take x.length ⟨m, x ++ y⟩ w = .ok (.data ⟨m, y⟩ x, w) := by
  rw [take_eq]; simp

/-- `take(n)` with too little input, last or not: the exact number of missing items is requested. -/
theorem C12_take_short (m : Mode) (b : List I) (k : Nat) (hk : 1 ≤ k) (w : σ) :
    take (b.length + k) ⟨m, b⟩ w = .ok (.incomplete k, w) := by
  rw [take_eq]
  have : ¬ (b.length + k ≤ b.length) := by omega
  simp [this]

/-- `take(a)` followed by `take(b)`, values concatenated. -/
def takeTwice (a b : Nat) : Parser σ I (List I) (Error I) :=
  (take a).bind id (fun x => (take b).map (fun y => x ++ y))

/-- `take(a)` followed by `take(b)` matches what `take(a + b)` matches. They also ask for the same
amount when the first `take` is satisfied; otherwise the pair asks for what `take(a)` lacks. -/
theorem C12_take_add (a b : Nat) (m : Mode) (s : List I) (w : σ) :
    (a ≤ s.length → takeTwice a b ⟨m, s⟩ w = take (a + b) ⟨m, s⟩ w) ∧
    (s.length < a → takeTwice a b ⟨m, s⟩ w = .ok (.incomplete (a - s.length), w)) := by
  constructor
  · intro h
    have h1 : take a ⟨m, s⟩ w = .ok (.data ⟨m, s.drop a⟩ (s.take a), w) := by
      rw [take_eq]; simp [h]
    unfold takeTwice Parser.bind
    rw [M.bind_ok h1, ParseResult.bind_data, take_eq]
    unfold Parser.map
    dsimp only
    rw [M.bind_ok (take_eq _ _ _)]
    simp only [List.length_drop]
    by_cases h2 : b ≤ s.length - a
    · have h3 : a + b ≤ s.length := by omega
      simp only [h2, if_true, h3, ParseResult.map]
      simp [List.take_add]
    · have h3 : ¬ (a + b ≤ s.length) := by omega
      simp only [h2, if_false, h3, ParseResult.map]
      simp; omega
  · intro h
    have h1 : take a ⟨m, s⟩ w = .ok (.incomplete (a - s.length), w) := by
      rw [take_eq]; simp [Nat.not_le.mpr h]
    unfold takeTwice Parser.bind
    rw [M.bind_ok h1]; rfl

example : take 2 ⟨.default, ['a', 'b', 'c']⟩ () = .ok (.data ⟨.default, ['c']⟩ ['a', 'b'], ()) :=
  C12_take_ok .default ['a', 'b'] ['c'] ()

example : take 5 ⟨.endOfInput, ['a', 'b', 'c']⟩ () = .ok (.incomplete 2, ()) :=
  C12_take_short .endOfInput ['a', 'b', 'c'] 2 (by omega) ()

/-! ### C13 take_while

`x` is the longest prefix of `x ++ y` on which `f` holds iff `f` holds on all of `x` and not on the
first item of `y`. -/

/-- `x` is the longest prefix of `x ++ y` all of whose items satisfy `f`. -/
def MaxPrefix (f : I → Bool) (x y : List I) : Prop :=
  (∀ c ∈ x, f c = true) ∧ ∀ c r, y = c :: r → f c = false

/-- Every list splits this way, in one way only. -/
theorem MaxPrefix.exists (f : I → Bool) (b : List I) : ∃ x y, b = x ++ y ∧ MaxPrefix f x y := by
  induction b with
  | nil => exact ⟨[], [], rfl, by simp, by simp⟩
  | cons c r ih =>
    cases h : f c with
    | false => exact ⟨[], c :: r, rfl, by simp, by intro c' r' e; cases e; exact h⟩
    | true =>
      obtain ⟨x, y, e, hx, hy⟩ := ih
      refine ⟨c :: x, y, by simp [e], ?_, hy⟩
      intro d hd
      rcases List.mem_cons.mp hd with rfl | hd
      · exact h
      · exact hx d hd

theorem MaxPrefix.takeWhile {f : I → Bool} {x y : List I} (h : MaxPrefix f x y) :
    (x ++ y).takeWhile f = x ∧ (x ++ y).dropWhile f = y := by
  obtain ⟨hx, hy⟩ := h
  induction x with
  | nil =>
    cases y with
    | nil => simp
    | cons c r => simp [hy c r rfl]
  | cons c x ih =>
    have := ih (fun d hd => hx d (by simp [hd]))
    simp [hx c (by simp), this]

theorem MaxPrefix.all_iff {f : I → Bool} {x y : List I} (h : MaxPrefix f x y) :
    (x ++ y).all f = true ↔ y = [] := by
  obtain ⟨hx, hy⟩ := h
  constructor
  · intro ha
    cases y with
    | nil => rfl
    | cons c r =>
      have := hy c r rfl
      simp [this] at ha
  · rintro rfl
    simpa using hx

/-- The prefix really is the longest one: any other prefix satisfying `f` throughout is shorter. -/
theorem MaxPrefix.longest {f : I → Bool} {x y x' y' : List I} (h : MaxPrefix f x y)
    (e : x ++ y = x' ++ y') (h' : ∀ c ∈ x', f c = true) : x'.length ≤ x.length := by
  rcases Nat.lt_or_ge x.length x'.length with hl | hl
  · exfalso
    obtain ⟨hx, hy⟩ := h
    have hp : x <+: x' := by
      have h1 : x <+: x ++ y := List.prefix_append _ _
      have h2 : x' <+: x ++ y := by rw [e]; exact List.prefix_append _ _
      exact List.prefix_of_prefix_length_le h1 h2 (by omega)
    obtain ⟨z, rfl⟩ := hp
    cases z with
    | nil => simp at hl
    | cons c z =>
      have : y = c :: (z ++ y') := by simpa using e
      have h1 := hy _ _ this
      have h2 := h' c (by simp)
      simp [h1] at h2
  · exact hl

/-- `take_while` returns the longest matching prefix, unless the slice is not the last one and
matches entirely: then it asks for one more item. It never fails. -/
theorem C13_take_while (f : I → Bool) (m : Mode) (x y : List I) (h : MaxPrefix f x y) (w : σ) :
    takeWhile f ⟨m, x ++ y⟩ w =
      .ok (if m = .default ∧ y = [] then .incomplete 1 else .data ⟨m, y⟩ x, w) := by
  rw [takeWhile_eq]
  simp only [h.takeWhile, h.all_iff]

/-- Read from the result: a success of `take_while` determines the split. -/
theorem C13_take_while_iff (f : I → Bool) (m : Mode) (b : List I) (w w' : σ) (i : Input I)
    (x : List I) :
    takeWhile f ⟨m, b⟩ w = .ok (.data i x, w') ↔
      w' = w ∧ i.mode = m ∧ b = x ++ i.buf ∧ MaxPrefix f x i.buf ∧
        (m = .default → i.buf ≠ []) := by
  obtain ⟨x0, y0, rfl, h0⟩ := MaxPrefix.exists f b
  rw [C13_take_while f m x0 y0 h0]
  obtain ⟨mi, bi⟩ := i
  constructor
  · intro e
    split at e
    · simp at e
    · rename_i hn
      cases e
      exact ⟨rfl, rfl, rfl, h0, fun hm he => hn ⟨hm, he⟩⟩
  · rintro ⟨rfl, rfl, e, hmp, hn⟩
    dsimp only at e hmp hn ⊢
    have h1 := h0.takeWhile
    have h2 := hmp.takeWhile
    rw [e] at h1
    have hx : x0 = x := by rw [← h1.1, h2.1]
    have hy : y0 = bi := by rw [← h1.2, h2.2]
    subst hx hy
    have : ¬ (mi = .default ∧ y0 = []) := fun ⟨a, c⟩ => hn a c
    simp [this]

example : takeWhile (· == 'a') ⟨.default, ['a', 'a', 'b', 'a']⟩ () =
    .ok (.data ⟨.default, ['b', 'a']⟩ ['a', 'a'], ()) :=
  C13_take_while (· == 'a') .default ['a', 'a'] ['b', 'a'] ⟨by decide, by
    intro c r e; cases e; rfl⟩ ()

/-! ### C14 take_while1 -/

theorem C14_take_while1_empty (v : Bool) (f : I → Bool) (m : Mode) (w : σ) :
    takeWhile1 v f ⟨m, []⟩ w = .ok (.incomplete 1, w) := by
  rw [takeWhile1_eq]

theorem C14_take_while1_err (v : Bool) (f : I → Bool) (m : Mode) (c : I) (r : List I)
    (h : f c = false) (w : σ) :
    takeWhile1 v f ⟨m, c :: r⟩ w =
      .ok (.error (c :: r) (if v then .unexpected else .generic), w) := by
  rw [takeWhile1_eq]; simp [h, Err.unexpected]

/-- With a non-empty longest matching prefix, `take_while1` is `take_while`. -/
theorem C14_take_while1 (v : Bool) (f : I → Bool) (m : Mode) (x y : List I) (hx : x ≠ [])
    (h : MaxPrefix f x y) (w : σ) :
    takeWhile1 v f ⟨m, x ++ y⟩ w =
      .ok (if m = .default ∧ y = [] then .incomplete 1 else .data ⟨m, y⟩ x, w) := by
  rw [takeWhile1_eq]
  cases x with
  | nil => exact absurd rfl hx
  | cons c x =>
    have hc : f c = true := h.1 c (by simp)
    have h1 := h.takeWhile
    have h2 := h.all_iff
    simp only [List.cons_append] at h1 h2 ⊢
    rw [h1.1, h1.2]
    simp only [hc, Bool.true_eq_false, if_false, h2]

example : takeWhile1 true (· == 'a') ⟨.endOfInput, ['a', 'a']⟩ () =
    .ok (.data ⟨.endOfInput, []⟩ ['a', 'a'], ()) :=
  C14_take_while1 true (· == 'a') .endOfInput ['a', 'a'] [] (by simp) ⟨by decide, by simp⟩ ()

example : takeWhile1 true (· == 'a') ⟨.endOfInput, ['b', 'a']⟩ () =
    .ok (.error ['b', 'a'] .unexpected, ()) :=
  C14_take_while1_err true _ _ _ _ rfl ()

/-! ### C15 take_till -/

/-- Up to the first item satisfying `f`. -/
theorem C15_take_till (f : I → Bool) (m : Mode) (x : List I) (c : I) (y : List I)
    (hx : ∀ a ∈ x, f a = false) (hc : f c = true) (w : σ) :
    takeTill f ⟨m, x ++ c :: y⟩ w = .ok (.data ⟨m, c :: y⟩ x, w) := by
  rw [takeTill_eq]
  have h : MaxPrefix (fun a => !f a) x (c :: y) :=
    ⟨by intro a ha; simp [hx a ha], by intro a r e; cases e; simp [hc]⟩
  have := h.takeWhile
  simp only [this]
  simp [hc]

/-- No such item: incomplete, even if the slice is the last one. -/
theorem C15_take_till_none (f : I → Bool) (m : Mode) (b : List I)
    (hb : ∀ a ∈ b, f a = false) (w : σ) :
    takeTill f ⟨m, b⟩ w = .ok (.incomplete 1, w) := by
  rw [takeTill_eq]
  have : b.any f = false := by simpa using hb
  simp [this]

/-- On slices with a match it is `take_while` of the negated predicate. -/
theorem C15_take_till_take_while (f : I → Bool) (m : Mode) (b : List I)
    (hb : ∃ a ∈ b, f a = true) (w : σ) :
    takeTill f ⟨m, b⟩ w = takeWhile (fun c => !f c) ⟨m, b⟩ w := by
  rw [takeTill_eq, takeWhile_eq]
  have h1 : b.any f = true := by simpa using hb
  have h2 : ¬ (m = .default ∧ b.all (fun c => !f c) = true) := by
    rintro ⟨_, h⟩
    obtain ⟨a, ha, hf⟩ := hb
    have := List.all_eq_true.mp h a ha
    simp [hf] at this
  simp only [h1, if_true, h2, if_false]

example : takeTill (· == ' ') ⟨.default, ['a', 'b', ' ', 'c']⟩ () =
    .ok (.data ⟨.default, [' ', 'c']⟩ ['a', 'b'], ()) :=
  C15_take_till (· == ' ') .default ['a', 'b'] ' ' ['c'] (by decide) rfl ()

example : takeTill (· == ' ') ⟨.endOfInput, ['a', 'b']⟩ () = .ok (.incomplete 1, ()) :=
  C15_take_till_none _ _ _ (by decide) ()

/-! ### C16 scan, run_scanner

The state machine `f` runs over `x` from state `s` to state `s'` iff `x.foldlM f s = some s'`. -/

theorem C16_scan (s s' : S) (f : S → I → Option S) (m : Mode) (x : List I) (c : I) (y : List I)
    (hx : x.foldlM f s = some s') (hc : f s' c = none) (w : σ) :
    scan s f ⟨m, x ++ c :: y⟩ w = .ok (.data ⟨m, c :: y⟩ x, w) ∧
    runScanner s f ⟨m, x ++ c :: y⟩ w = .ok (.data ⟨m, c :: y⟩ (x, s'), w) :=
  ⟨scan_stop w hx hc, runScanner_stop w hx hc⟩

/-- The machine never stops: incomplete, even if the slice is the last one. -/
theorem C16_scan_none (s s' : S) (f : S → I → Option S) (m : Mode) (b : List I)
    (h : b.foldlM f s = some s') (w : σ) :
    scan s f ⟨m, b⟩ w = .ok (.incomplete 1, w) ∧
    runScanner s f ⟨m, b⟩ w = .ok (.incomplete 1, w) :=
  ⟨scan_none w h, runScanner_none w h⟩

/-- The two cases are exhaustive, hence neither parser can panic. -/
theorem C16_scan_total (s : S) (f : S → I → Option S) (i : Input I) (w : σ) :
    (∃ r, scan s f i w = .ok (r, w)) ∧ (∃ r, runScanner s f i w = .ok (r, w)) ∧
    scan s f i w = (runScanner s f).map Prod.fst i w := by
  obtain ⟨m, b⟩ := i
  rcases scan_cases f b s with ⟨s', h⟩ | ⟨x, c, y, s', rfl, hx, hc⟩
  · have := C16_scan_none s s' f m b h w
    refine ⟨⟨_, this.1⟩, ⟨_, this.2⟩, ?_⟩
    rw [this.1, Parser.map, M.bind_ok this.2]; rfl
  · have := C16_scan s s' f m x c y hx hc w
    refine ⟨⟨_, this.1⟩, ⟨_, this.2⟩, ?_⟩
    rw [this.1, Parser.map, M.bind_ok this.2]; rfl

/-- Counting up to two items. -/
example : runScanner 0 (fun s c => if c = 'a' ∧ s < 2 then some (s + 1) else none)
    ⟨.default, ['a', 'a', 'a']⟩ () = .ok (.data ⟨.default, ['a']⟩ (['a', 'a'], 2), ()) :=
  (C16_scan 0 2 _ .default ['a', 'a'] 'a' [] (by decide) (by decide) ()).2

/-! ### C17 string -/

theorem C17_string_match [DecidableEq I] (v : Bool) (s r : List I) (m : Mode) (w : σ) :
    string v s ⟨m, s ++ r⟩ w = .ok (.data ⟨m, r⟩ s, w) := string_match w

/-- Too short: the missing length is requested, whatever the items are. -/
theorem C17_string_short [DecidableEq I] (v : Bool) (s b : List I) (m : Mode)
    (h : b.length < s.length) (w : σ) :
    string v s ⟨m, b⟩ w = .ok (.incomplete (s.length - b.length), w) :=
  string_short w h

/-- A mismatch after the common part `x`. -/
theorem C17_string_mismatch [DecidableEq I] (v : Bool) (x s r : List I) (a c : I) (m : Mode)
    (h : a ≠ c) (hl : s.length ≤ r.length) (w : σ) :
    string v (x ++ a :: s) ⟨m, x ++ c :: r⟩ w =
      .ok (if v then .error (x ++ c :: r) (.string (x ++ a :: s)) else .error (c :: r) .generic,
        w) := by
  rw [string_mismatch w h hl]; cases v <;> rfl

/-- `string` succeeds exactly if the slice starts with the pattern. -/
theorem C17_string_iff [DecidableEq I] (v : Bool) (s b : List I) (m : Mode) (w w' : σ)
    (i : Input I) (t : List I) :
    string v s ⟨m, b⟩ w = .ok (.data i t, w') ↔
      w' = w ∧ t = s ∧ i.mode = m ∧ b = s ++ i.buf := by
  constructor
  · intro e
    rcases string_cases s b with h | ⟨r, rfl⟩ | ⟨x, a, c, s', r, rfl, rfl, hn, hl⟩
    · rw [C17_string_short v s b m h] at e; simp at e
    · rw [C17_string_match] at e; cases e; simp
    · rw [string_mismatch w hn hl] at e; simp at e
  · rintro ⟨rfl, rfl, rfl, rfl⟩
    exact C17_string_match _ _ _ _ _

example : string true ['a', 'b'] ⟨.default, ['a', 'c', 'd']⟩ () =
    .ok (.error ['a', 'c', 'd'] (.string ['a', 'b']), ()) :=
  C17_string_mismatch true ['a'] [] ['d'] 'b' 'c' .default (by decide) (by simp) ()

example : string false ['a', 'b'] ⟨.default, ['a', 'c', 'd']⟩ () =
    .ok (.error ['c', 'd'] .generic, ()) :=
  C17_string_mismatch false ['a'] [] ['d'] 'b' 'c' .default (by decide) (by simp) ()

example : string false ['a', 'b', 'c'] ⟨.endOfInput, ['x']⟩ () = .ok (.incomplete 2, ()) :=
  C17_string_short false _ _ _ (by decide) ()

/-! ### C18 eof, take_remainder -/

theorem C18_eof (v : Bool) (m : Mode) (b : List I) (w : σ) :
    eof v ⟨m, b⟩ w = .ok (if b = [] ∧ m = .endOfInput then .data ⟨m, b⟩ ()
      else .error b (if v then .unexpected else .generic), w) := by
  rw [eof_eq]; rfl

/-- `parse_only(|i| p(i).bind(|i, t| eof(i).map(|_| t)), s)` succeeds iff `p` succeeds and consumes
all of `s` without changing the mode. (Parsers made from this library never change it, see C05.) -/
theorem C18_then_eof (conv : Error I → E) (v : Bool) (p : Parser σ I T E) (s : List I) (w w' : σ)
    (t : T) :
    parseOnly (p.bind id (fun t => ((eof v).mapErr conv).map (fun _ => t))) s w = .ok (.ok t, w') ↔
      p ⟨.endOfInput, s⟩ w = .ok (.data ⟨.endOfInput, []⟩ t, w') := by
  unfold parseOnly Parser.bind Parser.map Parser.mapErr
  simp only [M.bind_apply]
  cases h : p ⟨.endOfInput, s⟩ w with
  | ok r =>
    obtain ⟨r, w1⟩ := r
    cases r with
    | data i t1 =>
      obtain ⟨m, b⟩ := i
      simp only [Res.bind_ok, ParseResult.bind_data, M.bind_apply]
      rw [eof_eq]
      by_cases hb : b = [] ∧ m = .endOfInput
      · obtain ⟨rfl, rfl⟩ := hb
        simp [ParseResult.mapErr, ParseResult.map]
      · simp [hb, ParseResult.mapErr, ParseResult.map]
        intro h1 h2; exact absurd ⟨h2, h1⟩ hb
    | error => simp
    | incomplete => simp
  | _ => simp

theorem C18_take_remainder (m : Mode) (b : List I) (w : σ) :
    takeRemainder ⟨m, b⟩ w = .ok (.data ⟨m, []⟩ b, w) := takeRemainder_eq _ _

example : eof true ⟨.default, ([] : List Nat)⟩ () = .ok (.error [] .unexpected, ()) :=
  C18_eof true .default [] ()

example : parseOnly ((take 2).bind id (fun t => ((eof true).mapErr id).map (fun _ => t)))
    ['a', 'b'] () = .ok (.ok ['a', 'b'], ()) :=
  (C18_then_eof id true (take 2) _ () () _).mpr (C12_take_ok .endOfInput ['a', 'b'] [] ())

end Chomp.Props
