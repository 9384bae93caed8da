import Verif.Lemmas.StdTake
import Verif.Props.Limit

/-
C98: `take` and `bytes` on a `Source`.
-/

namespace Chomp.Props

open Spec Inherited

section
variable {S B I : Type} [DataSource S I] [HonestSource S I] [Buffer B I] [LawfulBuffer B I]
variable {rem : S → List I} {errs : S → Nat}

private theorem taken_prefix {xs ys zs : List I} {n : Nat} (h : xs = ys ++ zs) (hn : ys.length ≤ n)
    (he : ys.length = n ∨ zs = []) : ys = xs.take n := by
  rcases he with he | he
  · rw [h, ← he, List.take_left]
  · rw [h, he, List.append_nil, List.take_of_length_le hn]

/-- `take(limit)` over a `FixedSizeBuffer` of any size, read to its end: the next `limit` items, or all if there are
less, and no others. Without a limit left the source is not touched. -/
theorem C98_take (hd : Delivers S rem errs) (chk : Bool) (interrupted : IoError → Bool) (size : List I → Nat)
    (hz : ∀ l, 0 < size l) (limit : Nat) (s : Source S (FixedSizeBuffer I)) (h : Usable s) (hc : 0 < s.capacity) :
    ∃ r ys s', takeToEnd chk interrupted size limit s () = .ok ((r, ys, limit - ys.length, s'), ()) ∧
      Taken rem s ys s' ∧ ys.length ≤ limit ∧
      (∀ n, r = .ok n → n = ys.length ∧ ys = (ahead rem s).take limit) ∧
      (∀ e, r = .error e → interrupted e = false ∧ errs s'.source < errs s.source) ∧ (limit = 0 → s' = s) := by
  obtain ⟨r, ys, s', h1, h2, h3, h4, h5, h6⟩ := takeToEnd_spec hd chk interrupted size ((reader_fixed hd chk).readsTo hd)
    (fun s ys s' hs hm => ⟨hm.usable, Nat.lt_of_lt_of_le hs.2 hm.cap⟩) (fun s hs => hs.1) (fun _ _ _ => trivial) hz []
    limit ⟨h, hc⟩
  exact ⟨r, ys, s', h1, h2.taken, h3, fun n hn => ⟨by simpa using (h4 n hn).1,
    taken_prefix h2.items h3 (h4 n hn).2⟩, h5, h6⟩

/-- And over any buffer which can hold as much as the slices offered, in particular a `GrowingBuffer`. -/
theorem C98_take_any (hd : Delivers S rem errs) (chk : Bool) (interrupted : IoError → Bool) (size : List I → Nat)
    (N : Nat) (hz : ∀ l, 0 < size l ∧ size l ≤ N) (limit : Nat) (s : Source S B) (h : Usable s)
    (hc : LawfulBuffer.CanHold s.buffer N) :
    ∃ r ys s', takeToEnd chk interrupted size limit s () = .ok ((r, ys, limit - ys.length, s'), ()) ∧
      Taken rem s ys s' ∧ ys.length ≤ limit ∧
      (∀ n, r = .ok n → n = ys.length ∧ ys = (ahead rem s).take limit) ∧
      (∀ e, r = .error e → interrupted e = false ∧ errs s'.source < errs s.source) ∧ (limit = 0 → s' = s) := by
  obtain ⟨r, ys, s', h1, h2, h3, h4, h5, h6⟩ := takeToEnd_spec hd chk interrupted size ((reader_hold hd chk N).readsTo hd)
    (fun s ys s' hs hm => ⟨hm.usable, hm.hold N hs.2⟩) (fun s hs => hs.1)
    (fun l n _ => Nat.le_trans (Nat.min_le_left _ _) (hz l).2) (fun l => (hz l).1) [] limit ⟨h, hc⟩
  exact ⟨r, ys, s', h1, h2.taken, h3, fun n hn => ⟨by simpa using (h4 n hn).1,
    taken_prefix h2.items h3 (h4 n hn).2⟩, h5, h6⟩

/-- `bytes()` over a `FixedSizeBuffer` of any size: everything, in order. -/
theorem C98_bytes (hd : Delivers S rem errs) (chk : Bool) (again : IoError → Bool) (s : Source S (FixedSizeBuffer I))
    (h : Usable s) (hc : 0 < s.capacity) :
    ∃ r ys s', bytes chk again s () = .ok ((r, s'), ()) ∧ Taken rem s ys s' ∧
      (∀ zs, r = .ok zs → zs = ahead rem s ∧ ahead rem s' = []) ∧
      ∀ e, r = .error e → again e = false ∧ errs s'.source < errs s.source := by
  obtain ⟨r, ys, s', h1, h2, h3, h4⟩ := bytes_spec hd chk again ((reader_fixed hd chk).readsTo hd)
    (fun s ys s' hs hm => ⟨hm.usable, Nat.lt_of_lt_of_le hs.2 hm.cap⟩) trivial [] ⟨h, hc⟩
  refine ⟨r, ys, s', h1, h2.taken, fun zs hz => ⟨?_, (h3 zs hz).2⟩, h4⟩
  rw [h2.items, (h3 zs hz).2, List.append_nil]
  exact (h3 zs hz).1

/-- And over any buffer which can hold one item, in particular a `GrowingBuffer`. -/
theorem C98_bytes_any (hd : Delivers S rem errs) (chk : Bool) (again : IoError → Bool) (s : Source S B)
    (h : Usable s) (hc : LawfulBuffer.CanHold s.buffer 1) :
    ∃ r ys s', bytes chk again s () = .ok ((r, s'), ()) ∧ Taken rem s ys s' ∧
      (∀ zs, r = .ok zs → zs = ahead rem s ∧ ahead rem s' = []) ∧
      ∀ e, r = .error e → again e = false ∧ errs s'.source < errs s.source := by
  obtain ⟨r, ys, s', h1, h2, h3, h4⟩ := bytes_spec hd chk again ((reader_hold hd chk 1).readsTo hd)
    (fun s ys s' hs hm => ⟨hm.usable, hm.hold 1 hs.2⟩) (Nat.le_refl 1) [] ⟨h, hc⟩
  refine ⟨r, ys, s', h1, h2.taken, fun zs hz => ⟨?_, (h3 zs hz).2⟩, h4⟩
  rw [h2.items, (h3 zs hz).2, List.append_nil]
  exact (h3 zs hz).1

/-- Over any `GrowingBuffer` with a limit, `take(limit)` ends early only above the limit of the buffer. -/
theorem C98_take_limited (hd : Delivers S rem errs) (chk : Bool) (interrupted : IoError → Bool) (size : List I → Nat)
    (hz : ∀ l, 0 < size l ∧ size l ≤ 2 ^ 62) (limit : Nat) (s : Source S (GrowingBuffer I)) (h : Usable s) :
    ∃ r ys s', takeToEnd chk interrupted size limit s () = .ok ((r, ys, limit - ys.length, s'), ()) ∧
      Taken rem s ys s' ∧ ys.length ≤ limit ∧
      (∀ n, r = .ok n → n = ys.length ∧
        (ys = (ahead rem s).take limit ∨ s'.buffer.limit ≠ 0 ∧ s'.buffer.limit < s'.capacity)) ∧
      (∀ e, r = .error e → interrupted e = false ∧ errs s'.source < errs s.source) ∧ (limit = 0 → s' = s) := by
  obtain ⟨r, ys, s', h1, h2, h3, h4, h5, h6⟩ := takeToEnd_spec hd chk interrupted size
    (ends_growing hd chk).readsTo (fun s ys s' hs hm => hm.usable) (fun s hs => hs)
    (fun l n _ => Nat.le_trans (Nat.min_le_left _ _) (hz l).2) (fun l => (hz l).1) [] limit h
  refine ⟨r, ys, s', h1, h2.taken, h3, fun n hn => ⟨by simpa using (h4 n hn).1, ?_⟩, h5, h6⟩
  rcases (h4 n hn).2 with he | he | he
  · exact .inl (taken_prefix h2.items h3 (.inl he))
  · exact .inl (taken_prefix h2.items h3 (.inr he))
  · exact .inr he

/-- And so does `bytes`. -/
theorem C98_bytes_limited (hd : Delivers S rem errs) (chk : Bool) (again : IoError → Bool)
    (s : Source S (GrowingBuffer I)) (h : Usable s) :
    ∃ r ys s', bytes chk again s () = .ok ((r, s'), ()) ∧ Taken rem s ys s' ∧
      (∀ zs, r = .ok zs → zs = ys ∧ (ahead rem s' = [] ∨ s'.buffer.limit ≠ 0 ∧ s'.buffer.limit < s'.capacity)) ∧
      ∀ e, r = .error e → again e = false ∧ errs s'.source < errs s.source := by
  obtain ⟨r, ys, s', h1, h2, h3, h4⟩ := bytes_spec hd chk again (ends_growing hd chk).readsTo
    (fun s ys s' hs hm => hm.usable) (by decide) [] h
  exact ⟨r, ys, s', h1, h2.taken, h3, h4⟩

end

/-! ### Concrete cases -/

namespace TakeExample

open StdExample

/-- C98: a body of three items is taken through a buffer of two, however the data is cut; then the next item is
parsed. -/
example (chk : Bool) (d : Script Nat) (hr : d.rem = [4, 5, 6, 7]) :
    ∃ s' s'', takeToEnd chk (fun _ => true) (fun _ => 32) 3 (small d) () = .ok ((.ok 3, [4, 5, 6], 0, s'), ()) ∧
      retry chk (Parsers.any : Parser Unit Nat Nat (Error Nat)) s' () = .ok ((.ok 7, s''), ()) := by
  obtain ⟨h1, h2⟩ := small_usable d
  obtain ⟨r, ys, s', g1, g2, _, g3, g4, _⟩ := C98_take Script.delivers chk (fun _ => true) (fun _ => 32)
    (fun _ => by decide) 3 (small d) h1 h2
  have ha : ahead Script.rem (small d) = [4, 5, 6, 7] := hr
  cases r with
  | error e => cases (g4 e rfl).1
  | ok n =>
    obtain ⟨e1, e2⟩ := g3 n rfl
    rw [ha] at e2
    have e2 : ys = [4, 5, 6] := e2
    subst e2 e1
    have := C98_then_parse Script.delivers chk (p := (Parsers.any : Parser Unit Nat Nat (Error Nat))) .any
      (small d) s' _ ⟨h1, rfl, nofun, fun _ => by show max 1 0 ≤ 2; decide⟩ g2 [7] ha nofun
      ⟨(fun x y n he hn => by
        match x, hn with
        | [], hn => cases hn; show 0 + 1 ≤ 2; decide
        | x :: xs, hn => cases hn), (fun n hn => by cases hn)⟩
    obtain ⟨s'', k1, _⟩ := this
    exact ⟨s', s'', g1, k1⟩

/-- C98: the items one by one, over a `GrowingBuffer`; and less than asked for. -/
example (chk : Bool) (d : Script Nat) (hr : d.rem = [4, 5, 6, 7]) :
    (∃ s', bytes chk (fun _ => true) (Source.withBuffer d (GrowingBuffer.withLimit id 0 : GrowingBuffer Nat)) () =
      .ok ((.ok [4, 5, 6, 7], s'), ())) ∧
    ∃ s', takeToEnd chk (fun _ => true) (fun _ => 32) 9
      (Source.withBuffer d (GrowingBuffer.withLimit id 0 : GrowingBuffer Nat)) () =
        .ok ((.ok 4, [4, 5, 6, 7], 5, s'), ()) := by
  have ha : ahead Script.rem (Source.withBuffer d (GrowingBuffer.withLimit id 0 : GrowingBuffer Nat)) =
    [4, 5, 6, 7] := hr
  constructor
  · obtain ⟨r, ys, s', g1, g2, g3, g4⟩ := C98_bytes_any Script.delivers chk (fun _ => true)
      (Source.withBuffer d (GrowingBuffer.withLimit id 0 : GrowingBuffer Nat))
      ((C48_new (S := Script Nat) (B := GrowingBuffer Nat)).2.2 id 0).1 ⟨rfl, by decide⟩
    rw [ha] at g3
    cases r with
    | error e => cases (g4 e rfl).1
    | ok zs =>
      obtain ⟨rfl, _⟩ := g3 zs rfl
      exact ⟨s', g1⟩
  · obtain ⟨r, ys, s', g1, g2, _, g3, g4, _⟩ := C98_take_any Script.delivers chk (fun _ => true) (fun _ => 32) 32
      (fun _ => by decide) 9 (Source.withBuffer d (GrowingBuffer.withLimit id 0 : GrowingBuffer Nat))
      ((C48_new (S := Script Nat) (B := GrowingBuffer Nat)).2.2 id 0).1 ⟨rfl, by decide⟩
    rw [ha] at g3
    cases r with
    | error e => cases (g4 e rfl).1
    | ok n =>
      obtain ⟨rfl, rfl⟩ := g3 n rfl
      exact ⟨s', g1⟩

open LimitExample

/-- C98: of five items, three are found over the limit, by both. -/
example : takeToEnd true (fun _ => true) (fun _ => 32) 4 filled () = .ok ((.ok 3, [4, 5, 6], 1, emptied), ()) ∧
    bytes true (fun _ => true) filled () = .ok ((.ok [4, 5, 6], emptied), ()) := by
  have h1 : filled.read true 4 = .ok (.ok [4, 5, 6], emptied) := Source.read_of_fuel 5 rfl
  have h2 : emptied.read true 1 = .ok (.ok [], emptied) := Source.read_of_fuel 5 rfl
  have h3 : filled.read true 1 = .ok (.ok [4], { filled with buffer := { filled.buffer with used := 1 } }) :=
    Source.read_of_fuel 5 rfl
  have h4 : ({ filled with buffer := { filled.buffer with used := 1 } } : Source _ _).read true 1 =
      .ok (.ok [5], { filled with buffer := { filled.buffer with used := 2 } }) := Source.read_of_fuel 5 rfl
  have h5 : ({ filled with buffer := { filled.buffer with used := 2 } } : Source _ _).read true 1 =
      .ok (.ok [6], emptied) := Source.read_of_fuel 5 rfl
  constructor
  · unfold takeToEnd
    rw [loop_apply]
    unfold takeToEndStep takeRead
    dsimp only
    rw [if_neg (by decide), show min 32 4 = 4 from rfl, h1]
    show loop (takeToEndStep true (fun _ => true) (fun _ => 32)) ([4, 5, 6], 1, emptied) () = _
    rw [loop_apply]
    unfold takeToEndStep takeRead
    dsimp only
    rw [if_neg (by decide), show min 32 1 = 1 from rfl, h2]
    rfl
  · unfold bytes
    rw [loop_apply]
    unfold bytesStep
    dsimp only
    rw [h3]
    show loop (bytesStep true (fun _ => true)) ([4], { filled with buffer := { filled.buffer with used := 1 } }) () = _
    rw [loop_apply]
    unfold bytesStep
    dsimp only
    rw [h4]
    show loop (bytesStep true (fun _ => true)) ([4, 5], { filled with buffer := { filled.buffer with used := 2 } }) () = _
    rw [loop_apply]
    unfold bytesStep
    dsimp only
    rw [h5]
    show loop (bytesStep true (fun _ => true)) ([4, 5, 6], emptied) () = _
    rw [loop_apply]
    unfold bytesStep
    dsimp only
    rw [h2]
    rfl

end TakeExample

end Chomp.Props
