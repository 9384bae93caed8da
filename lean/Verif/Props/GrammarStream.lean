import Verif.Spec.Values
import Verif.Props.WellFormed
import Verif.Props.Retry

/-
C102: grammars and streams. A parser written like a grammar which passes the check of C101, made of parts which
do not depend on where the input is cut, reads from a `Source` what the grammar says.
-/

namespace Chomp.Props

open Spec Spec.Peg

variable {K : Type} {I : Type} {T E : K → Type}
variable {S B : Type} [DataSource S I] [HonestSource S I] [Buffer B I] [LawfulBuffer B I]

/-- The retry loop returns. It returns a value if and only if the expression matches the data, and what is then
ahead is what the grammar leaves; otherwise it returns what the parser has to complain about. -/
theorem C102_retry {rem : S → List I} {errs : S → Nat} (hd : Delivers S rem errs) (chk : Bool) (names : List K)
    (hn : ∀ k, k ∈ names) (G : K → Peg K I) (hG : wellFormed names G = true)
    (F : Fns Unit I T E → Fns Unit I T E) (hF : ∀ k, Shows (fun q => F q k) (G k)) {N : Nat}
    (hB : ∀ k, Body ⟨false, true, some N⟩ (fun q => F q k)) (p : Fns Unit I T E) (hp : Means F p) (k : K)
    (s : Source S B) (h : Ready rem s) (hne : ahead rem s ≠ [])
    (hc : LawfulBuffer.CanHold s.buffer ((ahead rem s).length + max 1 N))
    (hu : (ahead rem s).length + max 1 N ≤ usizeMax) :
    (∃ t s', retry chk (p k) s () = .ok ((.ok t, s'), ()) ∧ Continues rem s s' ∧
      p k ⟨.endOfInput, ahead rem s⟩ () = .ok (.data ⟨.endOfInput, ahead rem s'⟩ t, ()) ∧
      Matches G (.call k) (ahead rem s) (some (ahead rem s'))) ∨
    (∃ r s', retry chk (p k) s () = .ok ((.error r, s'), ()) ∧ Continues rem s s' ∧
      ((∃ b e, r = .parseError b e) ∨ ∃ n, r = .incomplete n) ∧ Matches G (.call k) (ahead rem s) none) := by
  have hb := C90_assembled F hB p hp k
  have ha := C51_retry hd chk (hb.streamed rfl) s h hne (C51_fits hb _ _ hc hu)
  obtain ⟨r, w', hr⟩ := C101_returns names hn G hG F hF p hp _ (.call k) (.call k) rfl
    ⟨.endOfInput, ahead rem s⟩ ()
  rw [hr] at ha
  cases r with
  | data i t =>
    obtain ⟨s', h1, h2, h3⟩ := ha
    obtain ⟨hm, _⟩ := C05_remainder hb.anything _ _ _ _ _ hr
    have he : i = ⟨.endOfInput, ahead rem s'⟩ := by cases i; cases hm; rw [h2]
    rw [he] at hr
    exact .inl ⟨t, s', h1, h3, hr, (C92_success G F hF p hp _ _ (.call k) _ _ ()).mp ⟨_, _, hr⟩⟩
  | error b e =>
    obtain ⟨s', h1, h2, h3⟩ := ha
    exact .inr ⟨_, s', h1, h3, .inl ⟨_, _, rfl⟩,
      (C92_failure G F hF p hp _ _ (.call k) _ ()).mp (.inl ⟨_, _, _, hr⟩)⟩
  | incomplete n =>
    obtain ⟨s', h1, h2, h3⟩ := ha
    exact .inr ⟨_, s', h1, h3, .inr ⟨_, rfl⟩,
      (C92_failure G F hF p hp _ _ (.call k) _ ()).mp (.inr ⟨_, _, hr⟩)⟩

/-- With nothing ahead, a nonterminal which consumes gives no value. -/
theorem C102_end {rem : S → List I} {errs : S → Nat} (hd : Delivers S rem errs) (chk : Bool) (names : List K)
    (hn : ∀ k, k ∈ names) (G : K → Peg K I) (hG : wellFormed names G = true)
    (F : Fns Unit I T E → Fns Unit I T E) (hF : ∀ k, Shows (fun q => F q k) (G k)) {N : Nat}
    (hB : ∀ k, Body ⟨false, true, some N⟩ (fun q => F q k)) (p : Fns Unit I T E) (hp : Means F p) (k : K)
    (hk : consuming names G k = true) (s : Source S B) (h : Ready rem s) (he : ahead rem s = [])
    (hc : LawfulBuffer.CanHold s.buffer (max 1 N)) (hu : max 1 N ≤ usizeMax) :
    (∃ r s', retry chk (p k) s () = .ok ((.error r, s'), ()) ∧ Continues rem s s') ∧
      Matches G (.call k) [] none := by
  have hb := C90_assembled F hB p hp k
  have hm := C101_consumes names hn G hG F hF p hp k hk
  refine ⟨?_, ?_⟩
  · have key := C67_empty hd chk (hb.streamed rfl) s h he
      (C51_fits hb _ _ (by rw [List.length_nil, Nat.zero_add]; exact hc)
        (by rw [List.length_nil, Nat.zero_add]; exact hu))
    by_cases hx : Unaware s ∧ Answers (p k)
    · have ha := key.1 hx
      obtain ⟨r, w', hr⟩ := C101_returns names hn G hG F hF p hp _ (.call k) (.call k) rfl ⟨.default, []⟩ ()
      rw [hr] at ha
      cases r with
      | data i t => exact absurd (hm _ _ _ _ _ hr) (Nat.not_lt_zero _)
      | error b e =>
        obtain ⟨s', h1, _, h3⟩ := ha
        exact ⟨_, s', h1, h3⟩
      | incomplete n =>
        obtain ⟨s', h1, _, h3⟩ := ha
        exact ⟨_, s', h1, h3⟩
    · obtain ⟨s', h1, h2, _⟩ := key.2 hx
      exact ⟨_, s', h1, h2⟩
  · obtain ⟨r, w', hr⟩ := C101_returns names hn G hG F hF p hp _ (.call k) (.call k) rfl ⟨.endOfInput, []⟩ ()
    cases r with
    | data i t => exact absurd (hm _ _ _ _ _ hr) (Nat.not_lt_zero _)
    | error b e => exact (C92_failure G F hF p hp _ _ (.call k) _ ()).mp (.inl ⟨_, _, _, hr⟩)
    | incomplete n => exact (C92_failure G F hF p hp _ _ (.call k) _ ()).mp (.inr ⟨_, _, hr⟩)

/-- Reading values until there are no more stops, after as many values as the nonterminal matches one after
the other: they are the values the parser gives on a single slice with all of the data, and where they end is
where the greedy repetition of the nonterminal ends. -/
theorem C102_values {rem : S → List I} {errs : S → Nat} (hd : Delivers S rem errs) (chk : Bool) (names : List K)
    (hn : ∀ k, k ∈ names) (G : K → Peg K I) (hG : wellFormed names G = true)
    (F : Fns Unit I T E → Fns Unit I T E) (hF : ∀ k, Shows (fun q => F q k) (G k)) {N : Nat}
    (hB : ∀ k, Body ⟨false, true, some N⟩ (fun q => F q k)) (p : Fns Unit I T E) (hp : Means F p) (k : K)
    (hk : consuming names G k = true) (s : Source S B) (h : Ready rem s)
    (hc : LawfulBuffer.CanHold s.buffer ((ahead rem s).length + max 1 N))
    (hu : (ahead rem s).length + max 1 N ≤ usizeMax) :
    ∃ ts s' y, values chk (p k) s () = .ok ((ts, s'), ()) ∧ Consecutive (p k) (ahead rem s) ts y ∧
      Matches G (.star (.call k)) (ahead rem s) (some y) := by
  have hm := C101_consumes names hn G hG F hF p hp k hk
  have main : ∀ n (s : Source S B) (acc : List (T k)), (ahead rem s).length = n → Ready rem s →
      LawfulBuffer.CanHold s.buffer (n + max 1 N) → n + max 1 N ≤ usizeMax → ∃ ts s' y,
      loop (nextValue chk (p k)) (acc, s) () = .ok ((acc ++ ts, s'), ()) ∧
      Consecutive (p k) (ahead rem s) ts y ∧ Matches G (.star (.call k)) (ahead rem s) (some y) := by
    intro n
    induction n using Nat.strongRecOn with
    | _ n ih =>
      intro s acc hl h hc hu
      have stop : (∃ r s', retry chk (p k) s () = .ok ((.error r, s'), ()) ∧ Continues rem s s') ∧
          Matches G (.call k) (ahead rem s) none → ∃ ts s' y,
          loop (nextValue chk (p k)) (acc, s) () = .ok ((acc ++ ts, s'), ()) ∧
          Consecutive (p k) (ahead rem s) ts y ∧ Matches G (.star (.call k)) (ahead rem s) (some y) := by
        rintro ⟨⟨r, s', h1, _⟩, h2⟩
        refine ⟨[], s', ahead rem s, ?_, .nil, .star_stop h2⟩
        rw [loop_apply, nextValue, M.bind_apply, h1, List.append_nil]
        rfl
      by_cases he : ahead rem s = []
      · have h0 : n = 0 := by rw [← hl, he]; rfl
        rw [h0, Nat.zero_add] at hc hu
        have := C102_end hd chk names hn G hG F hF hB p hp k hk s h he hc hu
        exact stop ⟨this.1, by rw [he]; exact this.2⟩
      · rcases C102_retry hd chk names hn G hG F hF hB p hp k s h he (by rw [hl]; exact hc)
          (by rw [hl]; exact hu) with ⟨t, s', h1, h2, h3, h4⟩ | ⟨r, s', h1, h2, _, h4⟩
        · have hlt : (ahead rem s').length < n := by rw [← hl]; exact hm _ _ _ _ _ h3
          obtain ⟨ts, s2, y, g1, g2, g3⟩ := ih _ hlt s' (acc ++ [t]) rfl h2.1
            (LawfulBuffer.canHold_le (by omega) (h2.2 _ hc)) (by omega)
          refine ⟨t :: ts, s2, y, ?_, .cons h3 g2, .star h4 g3⟩
          rw [loop_apply, nextValue, M.bind_apply, h1]
          rw [List.append_assoc] at g1
          exact g1
        · exact stop ⟨⟨r, s', h1, h2⟩, h4⟩
  obtain ⟨ts, s', y, h1, h2⟩ := main _ s [] rfl h hc hu
  exact ⟨ts, s', y, h1, h2⟩

/-- In particular for a new source with a buffer which grows without a limit, whatever the slices the data comes
in, and whatever I/O errors are on the way. -/
theorem C102_growing {S : Type} [DataSource S I] [HonestSource S I] {rem : S → List I} {errs : S → Nat}
    (hd : Delivers S rem errs) (chk : Bool) (names : List K)
    (hn : ∀ k, k ∈ names) (G : K → Peg K I) (hG : wellFormed names G = true)
    (F : Fns Unit I T E → Fns Unit I T E) (hF : ∀ k, Shows (fun q => F q k) (G k)) {N : Nat}
    (hB : ∀ k, Body ⟨false, true, some N⟩ (fun q => F q k)) (p : Fns Unit I T E) (hp : Means F p) (k : K)
    (s : S) (extra : Nat → Nat) (hne : rem s ≠ []) (hl : (rem s).length + max 1 N ≤ 2 ^ 62) :
    (∃ t s', retry chk (p k) (Source.withBuffer s (GrowingBuffer.withLimit extra 0 : GrowingBuffer I)) () =
        .ok ((.ok t, s'), ()) ∧ Matches G (.call k) (rem s) (some (ahead rem s'))) ∨
    (∃ r s', retry chk (p k) (Source.withBuffer s (GrowingBuffer.withLimit extra 0 : GrowingBuffer I)) () =
        .ok ((.error r, s'), ()) ∧ Matches G (.call k) (rem s) none) := by
  have hr := C51_new rem s (GrowingBuffer.withLimit extra 0 : GrowingBuffer I)
    (GrowingBuffer.withLimit_inv _ _) ⟨rfl, by decide⟩
  have ha : ahead rem (Source.withBuffer s (GrowingBuffer.withLimit extra 0 : GrowingBuffer I)) = rem s :=
    hr.2
  rw [← ha] at hne hl
  have h := C102_retry hd chk names hn G hG F hF hB p hp k _ hr.1 hne ⟨rfl, hl⟩ (Nat.le_trans hl (by decide))
  rw [ha] at h
  exact h.imp (fun ⟨t, s', h1, _, _, h4⟩ => ⟨t, s', h1, h4⟩) (fun ⟨t, s', h1, _, _, h4⟩ => ⟨t, s', h1, h4⟩)

/-- The same for the values in a row. -/
theorem C102_growing_values {S : Type} [DataSource S I] [HonestSource S I] {rem : S → List I} {errs : S → Nat}
    (hd : Delivers S rem errs) (chk : Bool) (names : List K)
    (hn : ∀ k, k ∈ names) (G : K → Peg K I) (hG : wellFormed names G = true)
    (F : Fns Unit I T E → Fns Unit I T E) (hF : ∀ k, Shows (fun q => F q k) (G k)) {N : Nat}
    (hB : ∀ k, Body ⟨false, true, some N⟩ (fun q => F q k)) (p : Fns Unit I T E) (hp : Means F p) (k : K)
    (hk : consuming names G k = true) (s : S) (extra : Nat → Nat) (hl : (rem s).length + max 1 N ≤ 2 ^ 62) :
    ∃ ts s' y, values chk (p k) (Source.withBuffer s (GrowingBuffer.withLimit extra 0 : GrowingBuffer I)) () =
        .ok ((ts, s'), ()) ∧ Consecutive (p k) (rem s) ts y ∧ Matches G (.star (.call k)) (rem s) (some y) := by
  have hr := C51_new rem s (GrowingBuffer.withLimit extra 0 : GrowingBuffer I)
    (GrowingBuffer.withLimit_inv _ _) ⟨rfl, by decide⟩
  have ha : ahead rem (Source.withBuffer s (GrowingBuffer.withLimit extra 0 : GrowingBuffer I)) = rem s :=
    hr.2
  rw [← ha] at hl ⊢
  exact C102_values hd chk names hn G hG F hF hB p hp k hk _ hr.1 ⟨rfl, hl⟩ (Nat.le_trans hl (by decide))

/-! ### Example -/

namespace WellFormedEx

open Name

/-- None of the parts of the grammar for sums and products depends on where the input is cut. -/
theorem body_streaming (k : Name) : Body ⟨false, true, some 1⟩ (fun q => body q k) := by
  cases k with
  | expr => exact .map _ (.sepBy1 _ _ (.call term) (.const (.token _ _)))
  | term => exact .map _ (.sepBy1 _ _ (.call factor) (.const (.token _ _)))
  | factor =>
    exact .or (.andThen (.const (.token _ _)) (.bind (.call expr) fun _ => .map _ (.const (.token _ _))))
      (.map _ (.const (.takeWhile1 _ _)))

/-- `1+(2);3`, in two pieces with an I/O error between them -/
def chunks : Script Char := ⟨[.data '1' ['+', '('], .err ⟨7⟩, .data '2' [')', ';', '3']]⟩

theorem item_no (f : Char → Bool) (c : Char) (x : List Char) (h : f c = false) :
    Matches grammar (.item f) (c :: x) none := .item_other h

theorem digit (c d : Char) (x : List Char) (hp : c ≠ '(') (hc : c.isDigit = true) (hd : d.isDigit = false) :
    Matches grammar (.call factor) (c :: d :: x) (some (d :: x)) :=
  .call (.alt_second (.seq_fail (item_no _ _ _ (decide_eq_false hp)))
    (.seq (.item hc) (.star_stop (item_no _ _ _ hd))))

theorem term_one (d : Char) (w x : List Char) (h : Matches grammar (.call factor) w (some (d :: x)))
    (hd : d ≠ '*') : Matches grammar (.call term) w (some (d :: x)) :=
  .call (.seq h (.star_stop (.seq_fail (item_no _ _ _ (decide_eq_false hd)))))

theorem expr_one (d : Char) (w x : List Char) (h : Matches grammar (.call term) w (some (d :: x)))
    (hd : d ≠ '+') : Matches grammar (.call expr) w (some (d :: x)) :=
  .call (.seq h (.star_stop (.seq_fail (item_no _ _ _ (decide_eq_false hd)))))

theorem text : Matches grammar (.call expr) ['1', '+', '(', '2', ')', ';', '3'] (some [';', '3']) := by
  have two := expr_one _ _ _ (term_one _ _ _ (digit '2' ')' [';', '3'] (by decide) rfl rfl) (by decide))
    (by decide)
  have group : Matches grammar (.call factor) ['(', '2', ')', ';', '3'] (some [';', '3']) :=
    .call (.alt (.seq (.item rfl) (.seq two (.item rfl))))
  refine .call (.seq (term_one _ _ _ (digit '1' '+' _ (by decide) rfl rfl) (by decide)) ?_)
  exact .star (.seq (.item rfl) (term_one _ _ _ group (by decide)))
    (.star_stop (.seq_fail (item_no _ _ _ rfl)))

/-- The sum is found, and the source is left at the `;`. -/
example (chk : Bool) (extra : Nat → Nat)
    (p : Fns Unit Char (fun _ : Name => List Unit) (fun _ => Error Char)) (hp : Means body p) :
    ∃ t s', retry chk (p expr)
        (Source.withBuffer chunks (GrowingBuffer.withLimit extra 0 : GrowingBuffer Char)) () =
      .ok ((.ok t, s'), ()) ∧ ahead Script.rem s' = [';', '3'] := by
  rcases C102_growing Script.delivers chk names names_all grammar grammar_ok body body_shows body_streaming p hp
    expr chunks extra (by decide) (by decide) with ⟨t, s', h1, h2⟩ | ⟨r, s', _, h2⟩
  · have := (C92_deterministic _ _ _ _ _ h2 text).1
    exact ⟨t, s', h1, Option.some.inj this⟩
  · exact absurd (C92_deterministic _ _ _ _ _ h2 text).1 nofun

/-- Reading sums in a row stops there after the first one. -/
example (chk : Bool) (extra : Nat → Nat)
    (p : Fns Unit Char (fun _ : Name => List Unit) (fun _ => Error Char)) (hp : Means body p) :
    ∃ t s', values chk (p expr)
        (Source.withBuffer chunks (GrowingBuffer.withLimit extra 0 : GrowingBuffer Char)) () =
      .ok (([t], s'), ()) := by
  obtain ⟨ts, s', y, h1, h2, h3⟩ := C102_growing_values Script.delivers chk names names_all grammar grammar_ok
    body body_shows body_streaming p hp expr (by decide) chunks extra (by decide)
  have stop : Matches grammar (.call expr) [';', '3'] none :=
    .call (.seq_fail (.call (.seq_fail (.call (.alt_second (.seq_fail (item_no _ _ _ rfl))
      (.seq_fail (item_no _ _ _ rfl)))))))
  have all : Matches grammar (.star (.call expr)) ['1', '+', '(', '2', ')', ';', '3'] (some [';', '3']) :=
    .star text (.star_stop stop)
  have hy := Option.some.inj (C92_deterministic _ _ _ _ _ h3 all).1
  have first := fun y t h => (C92_success grammar body body_shows p hp _ _ (.call expr)
    ['1', '+', '(', '2', ')', ';', '3'] y ()).mp ⟨t, (), h⟩
  cases h2 with
  | nil => cases hy
  | cons h4 h5 =>
    have := Option.some.inj (C92_deterministic _ _ _ _ _ (first _ _ h4) text).1
    cases this
    cases h5 with
    | nil => exact ⟨_, s', h1⟩
    | cons h6 _ =>
      have := (C92_success grammar body body_shows p hp _ _ (.call expr) _ _ ()).mp ⟨_, (), h6⟩
      exact absurd (C92_deterministic _ _ _ _ _ this stop).1 nofun

end WellFormedEx

end Chomp.Props
