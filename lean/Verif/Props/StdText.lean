import Verif.Model.StdText
import Verif.Props.Std

/-
C98: `read_line` and `read_to_string` on a `Source`.
-/

namespace Chomp.Props

open Spec Inherited

section
variable {S B I : Type} [DataSource S I] [HonestSource S I] [Buffer B I] [LawfulBuffer B I]
variable {rem : S → List I} {errs : S → Nat}

omit [DataSource S I] [HonestSource S I] [Buffer B I] [LawfulBuffer B I] in
/-- What becomes of a result. -/
private theorem checkText_spec (valid : List I → Bool) (invalid : IoError) (str ys : List I) (r : Except IoError Nat)
    (s : Source S B) :
    ∃ r' str', checkText valid invalid str (r, str ++ ys, s) = (r', str', s) ∧
      (∀ n, r' = .ok n → r = .ok n ∧ valid ys = true ∧ str' = str ++ ys) ∧
      ∀ e, r' = .error e → (∃ n, r = .ok n) ∧ e = invalid ∧ valid ys = false ∧ str' = str ∨
        r = .error e ∧ str' = if valid ys then str ++ ys else str := by
  unfold checkText
  dsimp only
  rw [List.drop_left]
  cases hv : valid ys with
  | true =>
    rw [if_pos rfl]
    exact ⟨r, _, rfl, fun n hn => ⟨hn, rfl, rfl⟩, fun e he => .inr ⟨he, by rw [if_pos rfl]⟩⟩
  | false =>
    rw [if_neg (by decide)]
    cases r with
    | ok n =>
      refine ⟨_, _, rfl, (fun n hn => by cases hn), fun e he => ?_⟩
      cases he
      exact .inl ⟨⟨n, rfl⟩, rfl, rfl, rfl⟩
    | error e =>
      exact ⟨_, _, rfl, (fun n hn => by cases hn), fun e' he => .inr ⟨he, by rw [if_neg (by decide)]⟩⟩

/-- `read_line` over a `FixedSizeBuffer` of any size: the next line is appended to the string if it is valid. If not,
the string stays as it is, but the line is gone from the source. -/
theorem C98_read_line [DecidableEq I] (hd : Delivers S rem errs) (chk : Bool) (interrupted : IoError → Bool)
    (valid : List I → Bool) (invalid : IoError) (newline : I) (str : List I) (s : Source S (FixedSizeBuffer I))
    (h : Usable s) (hc : 0 < s.capacity) :
    ∃ r ys str' s', readLine chk interrupted valid invalid newline str s () = .ok ((r, str', s'), ()) ∧
      Taken rem s ys s' ∧
      (∀ n, r = .ok n → n = ys.length ∧ ys = upTo newline (ahead rem s) ∧ valid ys = true ∧ str' = str ++ ys) ∧
      ∀ e, r = .error e →
        e = invalid ∧ ys = upTo newline (ahead rem s) ∧ valid ys = false ∧ str' = str ∨
        interrupted e = false ∧ errs s'.source < errs s.source ∧ str' = if valid ys then str ++ ys else str := by
  obtain ⟨r, ys, s', h1, h2, h3, h4⟩ := C98_read_until hd chk interrupted newline str s h hc
  obtain ⟨r', str', g1, g2, g3⟩ := checkText_spec valid invalid str ys r s'
  refine ⟨r', ys, str', s', ?_, h2, fun n hn => ?_, fun e he => ?_⟩
  · unfold readLine
    rw [M.bind_ok h1, g1]
    rfl
  · obtain ⟨k1, k2, k3⟩ := g2 n hn
    exact ⟨(h3 n k1).1, (h3 n k1).2, k2, k3⟩
  · rcases g3 e he with ⟨⟨n, k0⟩, k1, k2, k3⟩ | ⟨k1, k2⟩
    · exact .inl ⟨k1, (h3 n k0).2, k2, k3⟩
    · exact .inr ⟨(h4 e k1).1, (h4 e k1).2.1, k2⟩

/-- And over a `GrowingBuffer` without limit which has some capacity. -/
theorem C98_read_line_growing [DecidableEq I] (hd : Delivers S rem errs) (chk : Bool) (interrupted : IoError → Bool)
    (valid : List I → Bool) (invalid : IoError) (newline : I) (str : List I) (s : Source S (GrowingBuffer I))
    (h : Usable s) (hc : 0 < s.capacity) (hl : s.buffer.limit = 0) :
    ∃ r ys str' s', readLine chk interrupted valid invalid newline str s () = .ok ((r, str', s'), ()) ∧
      Taken rem s ys s' ∧
      (∀ n, r = .ok n → n = ys.length ∧ ys = upTo newline (ahead rem s) ∧ valid ys = true ∧ str' = str ++ ys) ∧
      ∀ e, r = .error e →
        e = invalid ∧ ys = upTo newline (ahead rem s) ∧ valid ys = false ∧ str' = str ∨
        interrupted e = false ∧ errs s'.source < errs s.source ∧ str' = if valid ys then str ++ ys else str := by
  obtain ⟨r, ys, s', h1, h2, h3, h4⟩ := C98_read_until_growing hd chk interrupted newline str s h hc hl
  obtain ⟨r', str', g1, g2, g3⟩ := checkText_spec valid invalid str ys r s'
  refine ⟨r', ys, str', s', ?_, h2, fun n hn => ?_, fun e he => ?_⟩
  · unfold readLine
    rw [M.bind_ok h1, g1]
    rfl
  · obtain ⟨k1, k2, k3⟩ := g2 n hn
    exact ⟨(h3 n k1).1, (h3 n k1).2, k2, k3⟩
  · rcases g3 e he with ⟨⟨n, k0⟩, k1, k2, k3⟩ | ⟨k1, k2⟩
    · exact .inl ⟨k1, (h3 n k0).2, k2, k3⟩
    · exact .inr ⟨(h4 e k1).1, (h4 e k1).2.1, k2⟩

/-- `read_to_string` over a `FixedSizeBuffer` of any size: everything if it is valid, otherwise nothing, and the source
is at its end all the same. -/
theorem C98_read_to_string (hd : Delivers S rem errs) (chk : Bool) (interrupted : IoError → Bool)
    (valid : List I → Bool) (invalid : IoError) (size : List I → Nat) (hz : ∀ l, 0 < size l)
    (s : Source S (FixedSizeBuffer I)) (h : Usable s) (hc : 0 < s.capacity) :
    ∃ r ys str' s', readToString chk interrupted valid invalid size s () = .ok ((r, str', s'), ()) ∧
      Taken rem s ys s' ∧
      (∀ n, r = .ok n → n = ys.length ∧ ys = ahead rem s ∧ valid ys = true ∧ str' = ys) ∧
      ∀ e, r = .error e →
        e = invalid ∧ ys = ahead rem s ∧ valid ys = false ∧ str' = [] ∨
        interrupted e = false ∧ errs s'.source < errs s.source ∧ str' = if valid ys then ys else [] := by
  obtain ⟨r, ys, s', h1, h2, h3, h4⟩ := C98_read_to_end hd chk interrupted size hz s h hc
  obtain ⟨r', str', g1, g2, g3⟩ := checkText_spec valid invalid [] ys r s'
  refine ⟨r', ys, str', s', ?_, h2, fun n hn => ?_, fun e he => ?_⟩
  · unfold readToString
    rw [M.bind_ok h1, show (r, ys, s') = (r, [] ++ ys, s') from rfl, g1]
    rfl
  · obtain ⟨k1, k2, k3⟩ := g2 n hn
    exact ⟨(h3 n k1).1, (h3 n k1).2, k2, k3⟩
  · rcases g3 e he with ⟨⟨n, k0⟩, k1, k2, k3⟩ | ⟨k1, k2⟩
    · exact .inl ⟨k1, (h3 n k0).2, k2, k3⟩
    · exact .inr ⟨(h4 e k1).1, (h4 e k1).2, k2⟩

/-- And over any buffer which can hold as much as the slices offered. -/
theorem C98_read_to_string_any (hd : Delivers S rem errs) (chk : Bool) (interrupted : IoError → Bool)
    (valid : List I → Bool) (invalid : IoError) (size : List I → Nat) (N : Nat) (hz : ∀ l, 0 < size l ∧ size l ≤ N)
    (s : Source S B) (h : Usable s) (hc : LawfulBuffer.CanHold s.buffer N) :
    ∃ r ys str' s', readToString chk interrupted valid invalid size s () = .ok ((r, str', s'), ()) ∧
      Taken rem s ys s' ∧
      (∀ n, r = .ok n → n = ys.length ∧ ys = ahead rem s ∧ valid ys = true ∧ str' = ys) ∧
      ∀ e, r = .error e →
        e = invalid ∧ ys = ahead rem s ∧ valid ys = false ∧ str' = [] ∨
        interrupted e = false ∧ errs s'.source < errs s.source ∧ str' = if valid ys then ys else [] := by
  obtain ⟨r, ys, s', h1, h2, h3, h4⟩ := C98_read_to_end_any hd chk interrupted size N hz s h hc
  obtain ⟨r', str', g1, g2, g3⟩ := checkText_spec valid invalid [] ys r s'
  refine ⟨r', ys, str', s', ?_, h2, fun n hn => ?_, fun e he => ?_⟩
  · unfold readToString
    rw [M.bind_ok h1, show (r, ys, s') = (r, [] ++ ys, s') from rfl, g1]
    rfl
  · obtain ⟨k1, k2, k3⟩ := g2 n hn
    exact ⟨(h3 n k1).1, (h3 n k1).2, k2, k3⟩
  · rcases g3 e he with ⟨⟨n, k0⟩, k1, k2, k3⟩ | ⟨k1, k2⟩
    · exact .inl ⟨k1, (h3 n k0).2, k2, k3⟩
    · exact .inr ⟨(h4 e k1).1, (h4 e k1).2, k2⟩

end

/-! ### Concrete cases -/

namespace TextExample

open StdExample

/-- items below 128 are valid -/
def ascii (l : List Nat) : Bool := l.all (· < 128)

/-- C98: of the lines `4 5 0` and `200 0` the first is read through a buffer of two; the second is refused, and gone:
what is left is 7. -/
example (chk : Bool) (d : Script Nat) (hr : d.rem = [4, 5, 0, 200, 0, 7]) :
    ∃ s1 s2, readLine chk (fun _ => true) ascii ⟨3⟩ 0 [9] (small d) () = .ok ((.ok 3, [9, 4, 5, 0], s1), ()) ∧
      ahead Script.rem s1 = [200, 0, 7] ∧
      readLine chk (fun _ => true) ascii ⟨3⟩ 0 [9] s1 () = .ok ((.error ⟨3⟩, [9], s2), ()) ∧
      ahead Script.rem s2 = [7] := by
  obtain ⟨h1, h2⟩ := small_usable d
  have ha : ahead Script.rem (small d) = [4, 5, 0, 200, 0, 7] := hr
  obtain ⟨r, ys, str, s1, g1, g2, g3, g4⟩ :=
    C98_read_line Script.delivers chk (fun _ => true) ascii ⟨3⟩ 0 [9] (small d) h1 h2
  rw [ha] at g3 g4
  cases r with
  | error e =>
    rcases g4 e rfl with ⟨_, rfl, k, _⟩ | ⟨k, _⟩
    · exact absurd k (by decide)
    · cases k
  | ok n =>
    obtain ⟨k1, k2, _, rfl⟩ := g3 n rfl
    have k2 : ys = [4, 5, 0] := k2
    subst k2 k1
    have hs1 : ahead Script.rem s1 = [200, 0, 7] := by
      have := g2.items
      rw [ha] at this
      exact (List.append_cancel_left (as := [4, 5, 0]) this).symm
    have hc : 0 < s1.capacity := by
      have : 2 ≤ s1.capacity :=
        (g2.ready ⟨h1, rfl, nofun, fun _ => by show max 1 0 ≤ 2; decide⟩).2 2 (show 2 ≤ 2 by decide)
      omega
    obtain ⟨r, ys, str, s2, f1, f2, f3, f4⟩ :=
      C98_read_line Script.delivers chk (fun _ => true) ascii ⟨3⟩ 0 [9] s1 g2.usable hc
    rw [hs1] at f3 f4
    cases r with
    | ok n =>
      obtain ⟨_, rfl, k, _⟩ := f3 n rfl
      exact absurd k (by decide)
    | error e =>
      rcases f4 e rfl with ⟨rfl, k, _, rfl⟩ | ⟨k, _⟩
      · have k : ys = [200, 0] := k
        subst k
        refine ⟨s1, s2, g1, hs1, f1, ?_⟩
        have := f2.items
        rw [hs1] at this
        exact (List.append_cancel_left (as := [200, 0]) this).symm
      · cases k

/-- C98: everything, or nothing. -/
example (chk : Bool) (d : Script Nat) (hr : d.rem = [4, 5, 6]) (d' : Script Nat) (hr' : d'.rem = [4, 200, 6]) :
    (∃ s', readToString chk (fun _ => true) ascii ⟨3⟩ (fun _ => 32) (small d) () = .ok ((.ok 3, [4, 5, 6], s'), ())) ∧
    ∃ s', readToString chk (fun _ => true) ascii ⟨3⟩ (fun _ => 32)
      (Source.withBuffer d' (GrowingBuffer.withLimit id 0 : GrowingBuffer Nat)) () =
        .ok ((.error ⟨3⟩, [], s'), ()) := by
  constructor
  · obtain ⟨h1, h2⟩ := small_usable d
    have ha : ahead Script.rem (small d) = [4, 5, 6] := hr
    obtain ⟨r, ys, str, s1, g1, g2, g3, g4⟩ :=
      C98_read_to_string Script.delivers chk (fun _ => true) ascii ⟨3⟩ (fun _ => 32) (fun _ => by decide) (small d) h1 h2
    rw [ha] at g3 g4
    cases r with
    | error e =>
      rcases g4 e rfl with ⟨_, rfl, k, _⟩ | ⟨k, _⟩
      · exact absurd k (by decide)
      · cases k
    | ok n =>
      obtain ⟨rfl, rfl, _, rfl⟩ := g3 n rfl
      exact ⟨s1, g1⟩
  · obtain ⟨r, ys, str, s1, g1, g2, g3, g4⟩ :=
      C98_read_to_string_any Script.delivers chk (fun _ => true) ascii ⟨3⟩ (fun _ => 32) 32 (fun _ => by decide)
        (Source.withBuffer d' (GrowingBuffer.withLimit id 0 : GrowingBuffer Nat))
        ((C48_new (S := Script Nat) (B := GrowingBuffer Nat)).2.2 id 0).1 ⟨rfl, by decide⟩
    have ha : ahead Script.rem (Source.withBuffer d' (GrowingBuffer.withLimit id 0 : GrowingBuffer Nat)) =
      [4, 200, 6] := hr'
    rw [ha] at g3 g4
    cases r with
    | ok n =>
      obtain ⟨_, rfl, k, _⟩ := g3 n rfl
      exact absurd k (by decide)
    | error e =>
      rcases g4 e rfl with ⟨rfl, _, _, rfl⟩ | ⟨k, _⟩
      · exact ⟨s1, g1⟩
      · cases k

end TextExample

end Chomp.Props
