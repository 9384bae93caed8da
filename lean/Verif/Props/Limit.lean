import Verif.Lemmas.Limit
import Verif.Props.Std

/-
C98 for a `GrowingBuffer` with a limit.
-/

namespace Chomp.Props

open Spec Inherited

section

variable {S I : Type} [DataSource S I] [HonestSource S I] {rem : S → List I} {errs : S → Nat}

/-- `read_until` over any `GrowingBuffer`, whatever its limit and capacity: as over other buffers, except that what
`fill_buf` cannot get at does not exist for it. -/
theorem C98_read_until_limited [DecidableEq I] (hd : Delivers S rem errs) (chk : Bool)
    (interrupted : IoError → Bool) (delim : I) (buf : List I) (s : Source S (GrowingBuffer I)) (h : Usable s) :
    ∃ r ys s', readUntil chk interrupted delim buf s () = .ok ((r, buf ++ ys, s'), ()) ∧
      Taken rem s ys s' ∧ reachable rem s = ys ++ reachable rem s' ∧
      (∀ n, r = .ok n → n = ys.length ∧ ys = upTo delim (reachable rem s)) ∧
      ∀ e, r = .error e → interrupted e = false ∧ errs s'.source < errs s.source ∧ delim ∉ ys := by
  obtain ⟨r, ys, s', h1, h2, _, h3, h4, h5⟩ :=
    readUntil_stretch chk interrupted delim (stretch_growing hd chk) buf 0 h
  exact ⟨r, ys, s', h1, h2.taken, h3, fun n hn => by simpa using h4 n hn,
    fun e he => ⟨(h5 e he).1, (h5 e he).2.2, (h5 e he).2.1⟩⟩

/-- And so is `split`. -/
theorem C98_split_limited [DecidableEq I] (hd : Delivers S rem errs) (chk : Bool)
    (interrupted : IoError → Bool) (delim : I) (s : Source S (GrowingBuffer I)) (h : Usable s) :
    ∃ r ys s', split chk interrupted delim s () = .ok ((r, s'), ()) ∧ Taken rem s ys s' ∧
      (∀ l, r = .ok l → l = pieces delim (reachable rem s) ∧ ys = reachable rem s) ∧
      ∀ e, r = .error e → interrupted e = false ∧ errs s'.source < errs s.source := by
  obtain ⟨r, ys, s', h1, h2, _, _, h4, h5⟩ := split_stretch chk interrupted delim (stretch_growing hd chk) [] h
  exact ⟨r, ys, s', h1, h2.taken, h4, h5⟩

/-- So above the limit, once the memory is used up, `read_until` reports the end of any stream, as often as it is
called: nothing is taken, and the next call does the same. -/
theorem C98_used_up [DecidableEq I] (hd : Delivers S rem errs) (chk : Bool) (delim : I)
    (buf : List I) (s : Source S (GrowingBuffer I)) (h : Usable s) (hr : reachable rem s = []) :
    ∃ r s', readUntil chk (fun _ => true) delim buf s () = .ok ((r, buf, s'), ()) ∧ r = .ok 0 ∧
      ahead rem s' = ahead rem s ∧ Usable s' ∧ reachable rem s' = [] := by
  obtain ⟨r, ys, s', h1, h2, h3, h4, h5⟩ := C98_read_until_limited hd chk (fun _ => true) delim buf s h
  rw [hr] at h3 h4
  obtain ⟨rfl, h6⟩ := List.append_eq_nil_iff.mp h3.symm
  refine ⟨r, s', by rw [List.append_nil] at h1; exact h1, ?_, h2.items.symm, h2.usable, h6⟩
  cases r with
  | error e => cases (h5 e rfl).1
  | ok n => rw [(h4 n rfl).1]; rfl

/-- `read_exact` over any `GrowingBuffer`, whatever its limit and capacity: the next `n` items. It reports the end early
only if the memory is above the limit, and then nothing is lost. -/
theorem C98_read_exact_limited (hd : Delivers S rem errs) (chk : Bool) (interrupted : IoError → Bool)
    (eof : IoError) (n : Nat) (s : Source S (GrowingBuffer I)) (h : Usable s) (hn : n ≤ 2 ^ 62) :
    ∃ r ys s', readExact chk interrupted eof n s () = .ok ((r, ys, s'), ()) ∧ Taken rem s ys s' ∧
      (r = .ok () → ys = (ahead rem s).take n ∧ ys.length = n) ∧
      ∀ e, r = .error e → ys.length < n ∧
        (e = eof ∧ (ys = ahead rem s ∨ s'.buffer.limit ≠ 0 ∧ s'.buffer.limit < s'.capacity) ∨
          interrupted e = false ∧ errs s'.source < errs s.source) := by
  obtain ⟨r, ys, s', h1, h2, h3, h4⟩ := readExact_ends hd chk interrupted eof (ends_growing hd chk) [] n h hn
  refine ⟨r, ys, s', h1, h2.taken, fun hr => ⟨?_, h3 hr⟩, fun e he => ⟨(h4 e he).1, ?_⟩⟩
  · rw [h2.items, ← h3 hr, List.take_left]
  · refine (h4 e he).2.imp_left fun ⟨k1, k2⟩ => ⟨k1, k2.imp_left fun k2 => ?_⟩
    rw [h2.items, k2, List.append_nil]

/-- And so does `read_to_end`. -/
theorem C98_read_to_end_limited (hd : Delivers S rem errs) (chk : Bool) (interrupted : IoError → Bool)
    (size : List I → Nat) (hz : ∀ l, 0 < size l ∧ size l ≤ 2 ^ 62) (s : Source S (GrowingBuffer I)) (h : Usable s) :
    ∃ r ys s', readToEnd chk interrupted size s () = .ok ((r, ys, s'), ()) ∧ Taken rem s ys s' ∧
      (∀ n, r = .ok n → n = ys.length ∧
        (ys = ahead rem s ∨ s'.buffer.limit ≠ 0 ∧ s'.buffer.limit < s'.capacity)) ∧
      ∀ e, r = .error e → interrupted e = false ∧ errs s'.source < errs s.source := by
  obtain ⟨r, ys, s', h1, h2, h3, h4⟩ := readToEnd_ends hd chk interrupted size (ends_growing hd chk) hz [] h
  refine ⟨r, ys, s', h1, h2.taken, fun n hn => ⟨by simpa using (h3 n hn).1, (h3 n hn).2.imp_left fun k => ?_⟩, h4⟩
  rw [h2.items, k, List.append_nil]

end

/-! ### Concrete cases -/

namespace LimitExample

/-- A buffer with the limit 2, and a source of five items. -/
def fresh : Source (Script Nat) (GrowingBuffer Nat) :=
  Source.withBuffer ⟨[.data 4 [5, 6, 7, 0]]⟩ (GrowingBuffer.withLimit (fun _ => 2) 2)

/-- After `fill` there is memory for three items, which is above the limit. -/
def filled : Source (Script Nat) (GrowingBuffer Nat) :=
  { fresh with
    source := ⟨[.data 7 [0]]⟩
    buffer := ⟨[some 4, some 5, some 6], 3, 3, 2, 0, fun _ => 2, 1⟩
    state := { fresh.state with incomplete := false, endOfInput := false } }

theorem fresh_filled : fresh.fill true = .ok (.ok 3, filled) := Source.fill_of_fuel (n := 5) rfl

theorem filled_usable : Usable filled := by
  have h := (Source.fill_grown (R := 1) (chk := true) (s := fresh) (s' := filled)
    (((C48_new (S := Script Nat) (B := GrowingBuffer Nat)).2.2 (fun _ => 2) 2).1) (by decide) fresh_filled)
  exact h.2.2

/-- C98: the items 7 and 0 are not found, although the delimiter is there; and they are not lost. -/
example : ∃ s' s'', readUntil true (fun _ => true) 0 [] filled () = .ok ((.ok 3, [4, 5, 6], s'), ()) ∧
    readUntil true (fun _ => true) 0 [] s' () = .ok ((.ok 0, [], s''), ()) ∧ ahead Script.rem s'' = [7, 0] := by
  obtain ⟨r, ys, s', g1, g2, g3, g4, g5⟩ :=
    C98_read_until_limited Script.delivers true (fun _ => true) 0 [] filled filled_usable
  have hr : reachable Script.rem filled = [4, 5, 6] := by rfl
  have ha : ahead Script.rem filled = [4, 5, 6, 7, 0] := by rfl
  rw [hr] at g3 g4
  cases r with
  | error e => cases (g5 e rfl).1
  | ok n =>
    obtain ⟨rfl, h2⟩ := g4 n rfl
    have h2 : ys = [4, 5, 6] := h2
    subst h2
    have h0 : reachable Script.rem s' = [] := (List.append_cancel_left (as := [4, 5, 6]) g3).symm
    obtain ⟨r, s'', k1, rfl, k2, _⟩ := C98_used_up Script.delivers true 0 [] s' g2.usable h0
    refine ⟨s', s'', g1, k1, ?_⟩
    have := g2.items
    rw [ha] at this
    rw [k2]
    exact (List.append_cancel_left (as := [4, 5, 6]) this).symm

/-- What is left after all of the memory was taken. -/
def emptied : Source (Script Nat) (GrowingBuffer Nat) :=
  { filled with buffer := { filled.buffer with used := 3 } }

/-- C98: `read_exact` reports the end early, and keeps what it has got. -/
example : readExact true (fun _ => true) ⟨1⟩ 4 filled () = .ok ((.error ⟨1⟩, [4, 5, 6], emptied), ()) := by
  have h1 : filled.read true 4 = .ok (.ok [4, 5, 6], emptied) := Source.read_of_fuel 5 rfl
  have h2 : emptied.read true 1 = .ok (.ok [], emptied) := Source.read_of_fuel 5 rfl
  unfold readExact
  rw [loop_apply]
  unfold readExactStep
  dsimp only
  rw [if_neg (by decide), h1]
  show loop (readExactStep true (fun _ => true) ⟨1⟩) ([4, 5, 6], 1, emptied) () = _
  rw [loop_apply]
  unfold readExactStep
  dsimp only
  rw [if_neg (by decide), h2]
  rfl

end LimitExample

end Chomp.Props
