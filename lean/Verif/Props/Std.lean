import Verif.Lemmas.Std
import Verif.Props.Retry

/-
C98: reading lines, a number of items or everything from a `Source` between parses.
-/

set_option linter.unusedSectionVars false

namespace Chomp.Props

open Spec Inherited

/-! ### C98 -/

/-- What `upTo` is: everything, if there is no delimiter, or else the items before the first one, and the
delimiter. -/
theorem C98_up_to [DecidableEq I] (delim : I) (l : List I) :
    (delim ∉ l → upTo delim l = l) ∧
    ∀ x y, l = x ++ delim :: y → delim ∉ x → upTo delim l = x ++ [delim] := by
  refine ⟨fun h => ?_, fun x y he hx => ?_⟩
  · have := upTo_append h []
    rwa [List.append_nil, upTo, List.append_nil] at this
  · rw [he, upTo_append hx, upTo, if_pos rfl]

/-- What `pieces` are: joined with delimiters they are the data, except that a delimiter at the end of
the data makes no further piece; and none contains a delimiter. -/
theorem C98_pieces [DecidableEq I] (delim : I) (l : List I) :
    (∀ q ∈ pieces delim l, delim ∉ q) ∧
    ((pieces delim l).flatMap (· ++ [delim]) = l ∨
      (pieces delim l).flatMap (· ++ [delim]) = l ++ [delim] ∧ l.getLast? ≠ some delim) := by
  induction l with
  | nil => exact ⟨by simp [pieces], .inl rfl⟩
  | cons x xs ih =>
    obtain ⟨h1, h2⟩ := ih
    by_cases hx : x = delim
    · subst hx
      rw [pieces, if_pos rfl]
      refine ⟨fun q hq => ?_, ?_⟩
      · rcases List.mem_cons.mp hq with rfl | hq
        · exact List.not_mem_nil
        · exact h1 q hq
      · rw [List.flatMap_cons]
        rcases h2 with h2 | ⟨h2, h3⟩
        · left; rw [h2]; rfl
        · by_cases hn : xs = []
          · left; subst hn; rfl
          · right
            rw [h2]
            refine ⟨rfl, ?_⟩
            rw [List.getLast?_cons]
            rcases List.eq_nil_or_concat xs with h | ⟨a, b, rfl⟩
            · exact absurd h hn
            · simpa using h3
    · rw [pieces, if_neg hx]
      match hp : pieces delim xs with
      | [] =>
        rw [hp] at h2
        have hn : xs = [] := by
          rcases h2 with h2 | ⟨h2, _⟩
          · exact h2.symm
          · exact absurd h2.symm (by simp)
        subst hn
        exact ⟨by simpa using fun h => hx h.symm, .inr ⟨rfl, by simpa using hx⟩⟩
      | q :: qs =>
        rw [hp] at h1 h2
        refine ⟨fun z hz => ?_, ?_⟩
        · rcases List.mem_cons.mp hz with rfl | hz
          · rw [List.mem_cons, not_or]
            exact ⟨fun h => hx h.symm, h1 q List.mem_cons_self⟩
          · exact h1 z (List.mem_cons_of_mem _ hz)
        · rw [List.flatMap_cons] at h2 ⊢
          rcases h2 with h2 | ⟨h2, h3⟩
          · left; rw [← h2]; rfl
          · right
            refine ⟨congrArg (x :: ·) h2, ?_⟩
            rw [List.getLast?_cons]
            rcases List.eq_nil_or_concat xs with rfl | ⟨a, b, rfl⟩
            · simpa using hx
            · simpa using h3

section
variable {S B I : Type} [DataSource S I] [HonestSource S I] [Buffer B I] [LawfulBuffer B I]
variable {rem : S → List I} {errs : S → Nat}

/-- `read_until` over a `FixedSizeBuffer` of any size: appends to the vector, and takes from the source,
exactly what is to come up to and including the first delimiter, or everything if there is none. It
returns an error only if the data source fails, not for `Interrupted`; then what has been taken
contains no delimiter and is in the vector. -/
theorem C98_read_until [DecidableEq I] (hd : Delivers S rem errs) (chk : Bool)
    (interrupted : IoError → Bool) (delim : I) (buf : List I) (s : Source S (FixedSizeBuffer I))
    (h : Usable s) (hc : 0 < s.capacity) :
    ∃ r ys s', readUntil chk interrupted delim buf s () = .ok ((r, buf ++ ys, s'), ()) ∧
      Taken rem s ys s' ∧ (∀ n, r = .ok n → n = ys.length ∧ ys = upTo delim (ahead rem s)) ∧
      ∀ e, r = .error e → interrupted e = false ∧ errs s'.source < errs s.source ∧ delim ∉ ys := by
  obtain ⟨r, ys, s', h1, h2, h3, h4⟩ := readUntil_spec hd chk interrupted delim (filler_fixed hd chk)
    (fun s ys s' hs hm => ⟨hm.usable, Nat.lt_of_lt_of_le hs.2 hm.cap⟩) buf 0 ⟨h, hc⟩
  exact ⟨r, ys, s', h1, h2.taken, fun n hn => by simpa using h3 n hn,
    fun e he => ⟨(h4 e he).1, (h4 e he).2.2, (h4 e he).2.1⟩⟩

/-- `split` over a `FixedSizeBuffer` of any size: the pieces of the data. -/
theorem C98_split [DecidableEq I] (hd : Delivers S rem errs) (chk : Bool)
    (interrupted : IoError → Bool) (delim : I) (s : Source S (FixedSizeBuffer I)) (h : Usable s)
    (hc : 0 < s.capacity) :
    ∃ r ys s', split chk interrupted delim s () = .ok ((r, s'), ()) ∧ Taken rem s ys s' ∧
      (∀ l, r = .ok l → l = pieces delim (ahead rem s) ∧ ahead rem s' = []) ∧
      ∀ e, r = .error e → interrupted e = false ∧ errs s'.source < errs s.source := by
  obtain ⟨r, ys, s', h1, h2, h3, h4⟩ := split_spec hd chk interrupted delim (filler_fixed hd chk)
    (fun s ys s' hs hm => ⟨hm.usable, Nat.lt_of_lt_of_le hs.2 hm.cap⟩) [] ⟨h, hc⟩
  exact ⟨r, ys, s', h1, h2.taken, h3, h4⟩

/-- `read_exact` over a `FixedSizeBuffer` of any size, also if the slice is longer than the buffer: the
next `n` items. It fails only if there are not that many, or the data source fails. -/
theorem C98_read_exact (hd : Delivers S rem errs) (chk : Bool) (interrupted : IoError → Bool)
    (eof : IoError) (n : Nat) (s : Source S (FixedSizeBuffer I)) (h : Usable s) (hc : 0 < s.capacity) :
    ∃ r ys s', readExact chk interrupted eof n s () = .ok ((r, ys, s'), ()) ∧ Taken rem s ys s' ∧
      (r = .ok () → ys = (ahead rem s).take n ∧ ys.length = n) ∧
      ∀ e, r = .error e → ys.length < n ∧
        (e = eof ∧ ys = ahead rem s ∨ interrupted e = false ∧ errs s'.source < errs s.source) := by
  obtain ⟨r, ys, s', h1, h2, h3, h4⟩ := readExact_spec hd chk interrupted eof (reader_fixed hd chk)
    (fun s ys s' hs hm => ⟨hm.usable, Nat.lt_of_lt_of_le hs.2 hm.cap⟩) (fun _ _ _ _ => trivial) [] n
    ⟨h, hc⟩ h trivial
  refine ⟨r, ys, s', h1, h2.taken, fun hr => ⟨?_, h3 hr⟩, fun e he => ⟨(h4 e he).1, ?_⟩⟩
  · rw [h2.items, ← h3 hr, List.take_left]
  · refine (h4 e he).2.imp_left fun ⟨k1, k2⟩ => ⟨k1, ?_⟩
    rw [h2.items, k2, List.append_nil]

/-- `read_exact` over any buffer which can hold `n` items, in particular a `GrowingBuffer`. -/
theorem C98_read_exact_any (hd : Delivers S rem errs) (chk : Bool) (interrupted : IoError → Bool)
    (eof : IoError) (n : Nat) (s : Source S B) (h : Usable s) (hc : LawfulBuffer.CanHold s.buffer n) :
    ∃ r ys s', readExact chk interrupted eof n s () = .ok ((r, ys, s'), ()) ∧ Taken rem s ys s' ∧
      (r = .ok () → ys = (ahead rem s).take n ∧ ys.length = n) ∧
      ∀ e, r = .error e → ys.length < n ∧
        (e = eof ∧ ys = ahead rem s ∨ interrupted e = false ∧ errs s'.source < errs s.source) := by
  obtain ⟨r, ys, s', h1, h2, h3, h4⟩ := readExact_spec hd chk interrupted eof (reader_hold hd chk n)
    (fun s ys s' hs hm => ⟨hm.usable, hm.hold n hs.2⟩) (fun _ _ hk hl => Nat.le_trans hk hl) [] n
    ⟨h, hc⟩ h (Nat.le_refl n)
  refine ⟨r, ys, s', h1, h2.taken, fun hr => ⟨?_, h3 hr⟩, fun e he => ⟨(h4 e he).1, ?_⟩⟩
  · rw [h2.items, ← h3 hr, List.take_left]
  · refine (h4 e he).2.imp_left fun ⟨k1, k2⟩ => ⟨k1, ?_⟩
    rw [h2.items, k2, List.append_nil]

/-- `read_to_end` over a `FixedSizeBuffer` of any size: everything, whatever slices are offered. -/
theorem C98_read_to_end (hd : Delivers S rem errs) (chk : Bool) (interrupted : IoError → Bool)
    (size : List I → Nat) (hz : ∀ l, 0 < size l) (s : Source S (FixedSizeBuffer I)) (h : Usable s)
    (hc : 0 < s.capacity) :
    ∃ r ys s', readToEnd chk interrupted size s () = .ok ((r, ys, s'), ()) ∧ Taken rem s ys s' ∧
      (∀ n, r = .ok n → n = ys.length ∧ ys = ahead rem s) ∧
      ∀ e, r = .error e → interrupted e = false ∧ errs s'.source < errs s.source := by
  obtain ⟨r, ys, s', h1, h2, h3, h4⟩ := readToEnd_spec hd chk interrupted size (reader_fixed hd chk)
    (fun s ys s' hs hm => ⟨hm.usable, Nat.lt_of_lt_of_le hs.2 hm.cap⟩) (fun l => ⟨hz l, trivial⟩) []
    ⟨h, hc⟩
  refine ⟨r, ys, s', h1, h2.taken, fun n hn => ⟨by simpa using (h3 n hn).1, ?_⟩, h4⟩
  rw [h2.items, (h3 n hn).2, List.append_nil]

/-- `read_to_end` over any buffer which can hold as much as the slices offered, in particular a
`GrowingBuffer`. -/
theorem C98_read_to_end_any (hd : Delivers S rem errs) (chk : Bool) (interrupted : IoError → Bool)
    (size : List I → Nat) (N : Nat) (hz : ∀ l, 0 < size l ∧ size l ≤ N) (s : Source S B) (h : Usable s)
    (hc : LawfulBuffer.CanHold s.buffer N) :
    ∃ r ys s', readToEnd chk interrupted size s () = .ok ((r, ys, s'), ()) ∧ Taken rem s ys s' ∧
      (∀ n, r = .ok n → n = ys.length ∧ ys = ahead rem s) ∧
      ∀ e, r = .error e → interrupted e = false ∧ errs s'.source < errs s.source := by
  obtain ⟨r, ys, s', h1, h2, h3, h4⟩ := readToEnd_spec hd chk interrupted size (reader_hold hd chk N)
    (fun s ys s' hs hm => ⟨hm.usable, hm.hold N hs.2⟩) hz [] ⟨h, hc⟩
  refine ⟨r, ys, s', h1, h2.taken, fun n hn => ⟨by simpa using (h3 n hn).1, ?_⟩, h4⟩
  rw [h2.items, (h3 n hn).2, List.append_nil]

/-- Parsing goes on behind what has been taken, also if the parser was waiting for more. -/
theorem C98_then_parse (hd : Delivers S rem errs) (chk : Bool) {p : Parser Unit I T E}
    (hp : Built streaming p) (s s' : Source S B) (ys : List I) (h : Ready rem s)
    (ht : Taken rem s ys s') (rest : List I) (hr : ahead rem s = ys ++ rest) (hne : rest ≠ [])
    (hfit : Fits p s.buffer rest) :
    Agrees rem s' (p ⟨.endOfInput, rest⟩ ()) (retry chk p s' ()) := by
  have he : ahead rem s' = rest := by
    have := ht.items
    rw [hr] at this
    exact (List.append_cancel_left this).symm
  obtain ⟨h1, h2⟩ := ht.ready h
  have := C51_retry hd chk hp s' h1 (by rw [he]; exact hne)
    (by rw [he]; exact ⟨fun x y n a b => h2 _ (hfit.1 x y n a b), hfit.2⟩)
  rwa [he] at this

/-- Over a new `GrowingBuffer`, `read_until` and `split` find nothing, without reading, on any stream. -/
theorem C98_growing [DecidableEq I] (chk : Bool) (interrupted : IoError → Bool) (delim : I)
    (buf : List I) (s : S) (extra : Nat → Nat) (limit : Nat) :
    readUntil chk interrupted delim buf
        (Source.withBuffer s (GrowingBuffer.withLimit extra limit : GrowingBuffer I)) () =
      .ok ((.ok 0, buf, Source.withBuffer s (GrowingBuffer.withLimit extra limit)), ()) ∧
    split chk interrupted delim
        (Source.withBuffer s (GrowingBuffer.withLimit extra limit : GrowingBuffer I)) () =
      .ok ((.ok [], Source.withBuffer s (GrowingBuffer.withLimit extra limit)), ()) := by
  have h1 : ∀ buf, readUntil chk interrupted delim buf
        (Source.withBuffer s (GrowingBuffer.withLimit extra limit : GrowingBuffer I)) () =
      .ok ((.ok 0, buf, Source.withBuffer s (GrowingBuffer.withLimit extra limit)), ()) := by
    intro buf
    unfold readUntil
    rw [loop_apply]
    unfold readUntilStep
    dsimp only
    rw [C57_growing, M.bind_ok (M.lift_ok _ _)]
    cases chk <;> rfl
  refine ⟨h1 buf, ?_⟩
  unfold split
  rw [loop_apply]
  unfold splitStep
  dsimp only
  rw [M.bind_ok (h1 [])]
  rfl

/-- Over a `GrowingBuffer` without limit which has some capacity, for instance since a parse has asked for
data before, `read_until` is as over a `FixedSizeBuffer`. -/
theorem C98_read_until_growing [DecidableEq I] (hd : Delivers S rem errs) (chk : Bool)
    (interrupted : IoError → Bool) (delim : I) (buf : List I) (s : Source S (GrowingBuffer I))
    (h : Usable s) (hc : 0 < s.capacity) (hl : s.buffer.limit = 0) :
    ∃ r ys s', readUntil chk interrupted delim buf s () = .ok ((r, buf ++ ys, s'), ()) ∧
      Taken rem s ys s' ∧ (∀ n, r = .ok n → n = ys.length ∧ ys = upTo delim (ahead rem s)) ∧
      ∀ e, r = .error e → interrupted e = false ∧ errs s'.source < errs s.source ∧ delim ∉ ys := by
  obtain ⟨r, ys, s', h1, h2, h3, h4⟩ := readUntil_spec hd chk interrupted delim (filler_growing hd chk)
    (fun s ys s' hs hm => ⟨hm.usable, Nat.lt_of_lt_of_le hs.2.1 hm.cap, hm.hold 0 hs.2.2⟩) buf 0
    ⟨h, hc, hl, Nat.zero_le _⟩
  exact ⟨r, ys, s', h1, h2.taken, fun n hn => by simpa using h3 n hn,
    fun e he => ⟨(h4 e he).1, (h4 e he).2.2, (h4 e he).2.1⟩⟩

/-- And so is `split`. -/
theorem C98_split_growing [DecidableEq I] (hd : Delivers S rem errs) (chk : Bool)
    (interrupted : IoError → Bool) (delim : I) (s : Source S (GrowingBuffer I)) (h : Usable s)
    (hc : 0 < s.capacity) (hl : s.buffer.limit = 0) :
    ∃ r ys s', split chk interrupted delim s () = .ok ((r, s'), ()) ∧ Taken rem s ys s' ∧
      (∀ l, r = .ok l → l = pieces delim (ahead rem s) ∧ ahead rem s' = []) ∧
      ∀ e, r = .error e → interrupted e = false ∧ errs s'.source < errs s.source := by
  obtain ⟨r, ys, s', h1, h2, h3, h4⟩ := split_spec hd chk interrupted delim (filler_growing hd chk)
    (fun s ys s' hs hm => ⟨hm.usable, Nat.lt_of_lt_of_le hs.2.1 hm.cap, hm.hold 0 hs.2.2⟩) []
    ⟨h, hc, hl, Nat.zero_le _⟩
  exact ⟨r, ys, s', h1, h2.taken, h3, h4⟩

end

/-! ### Concrete cases -/

namespace StdExample

/-- A new source with a buffer of two items. -/
def small (d : Script Nat) : Source (Script Nat) (FixedSizeBuffer Nat) :=
  Source.withBuffer d ⟨List.replicate 2 none, 0, 0⟩

theorem small_usable (d : Script Nat) : Usable (small d) ∧ 0 < (small d).capacity :=
  ⟨((C48_new (S := Script Nat) (B := FixedSizeBuffer Nat)).2.1 2 _ rfl).1, show 0 < 2 by decide⟩

/-- C98: a line of three items through a buffer of two, however the data is cut and wherever it is
interrupted; then the number after it is parsed. -/
example (chk : Bool) (d : Script Nat) (hr : d.rem = [4, 5, 0, 7]) :
    ∃ s' s'', readUntil chk (fun _ => true) 0 [9] (small d) () = .ok ((.ok 3, [9, 4, 5, 0], s'), ()) ∧
      retry chk (Parsers.any : Parser Unit Nat Nat (Error Nat)) s' () = .ok ((.ok 7, s''), ()) := by
  obtain ⟨h1, h2⟩ := small_usable d
  obtain ⟨r, ys, s', g1, g2, g3, g4⟩ := C98_read_until Script.delivers chk (fun _ => true) 0 [9] (small d) h1 h2
  have ha : ahead Script.rem (small d) = [4, 5, 0, 7] := hr
  cases r with
  | error e => cases (g4 e rfl).1
  | ok n =>
    obtain ⟨e1, e2⟩ := g3 n rfl
    rw [ha] at e2
    have e2 : ys = [4, 5, 0] := e2
    subst e2 e1
    have := C98_then_parse Script.delivers chk (p := (Parsers.any : Parser Unit Nat Nat (Error Nat))) .any
      (small d) s' _ ⟨h1, rfl, nofun, fun _ => by show max 1 0 ≤ 2; decide⟩ g2 [7] ha nofun
      ⟨(fun x y n he hn => by
        match x, hn with
        | [], hn => cases hn; show 0 + 1 ≤ 2; decide
        | x :: xs, hn => cases hn), (fun n hn => by cases hn)⟩
    obtain ⟨s'', k1, _⟩ := this
    exact ⟨s', s'', g1, k1⟩

/-- C98: the pieces. -/
example (chk : Bool) (d : Script Nat) (hr : d.rem = [4, 5, 0, 0, 7]) :
    ∃ s', split chk (fun _ => true) 0 (small d) () = .ok ((.ok [[4, 5], [], [7]], s'), ()) := by
  obtain ⟨h1, h2⟩ := small_usable d
  obtain ⟨r, ys, s', g1, g2, g3, g4⟩ := C98_split Script.delivers chk (fun _ => true) 0 (small d) h1 h2
  have ha : ahead Script.rem (small d) = [4, 5, 0, 0, 7] := hr
  cases r with
  | error e => cases (g4 e rfl).1
  | ok n =>
    obtain ⟨rfl, _⟩ := g3 n rfl
    rw [ha] at g1
    exact ⟨s', g1⟩

/-- C98: three items through a buffer of two, and everything. -/
example (chk : Bool) (d : Script Nat) (hr : d.rem = [4, 5, 6, 7]) :
    (∃ s', readExact chk (fun _ => true) ⟨1⟩ 3 (small d) () = .ok ((.ok (), [4, 5, 6], s'), ())) ∧
    (∃ s', readExact chk (fun _ => true) ⟨1⟩ 5 (small d) () = .ok ((.error ⟨1⟩, [4, 5, 6, 7], s'), ())) ∧
    ∃ s', readToEnd chk (fun _ => true) (fun l => l.length + 1) (small d) () =
      .ok ((.ok 4, [4, 5, 6, 7], s'), ()) := by
  obtain ⟨h1, h2⟩ := small_usable d
  have ha : ahead Script.rem (small d) = [4, 5, 6, 7] := hr
  refine ⟨?_, ?_, ?_⟩
  · obtain ⟨r, ys, s', g1, g2, g3, g4⟩ :=
      C98_read_exact Script.delivers chk (fun _ => true) ⟨1⟩ 3 (small d) h1 h2
    rw [ha] at g3 g4
    cases r with
    | error e =>
      obtain ⟨k1, ⟨_, k2⟩ | k2⟩ := g4 e rfl
      · subst k2; exact absurd k1 (by decide)
      · cases k2.1
    | ok u =>
      obtain ⟨rfl, _⟩ := g3 rfl
      exact ⟨s', g1⟩
  · obtain ⟨r, ys, s', g1, g2, g3, g4⟩ :=
      C98_read_exact Script.delivers chk (fun _ => true) ⟨1⟩ 5 (small d) h1 h2
    rw [ha] at g3 g4
    cases r with
    | error e =>
      obtain ⟨k1, ⟨rfl, rfl⟩ | k2⟩ := g4 e rfl
      · exact ⟨s', g1⟩
      · cases k2.1
    | ok u =>
      obtain ⟨rfl, k⟩ := g3 rfl
      exact absurd k (by decide)
  · obtain ⟨r, ys, s', g1, g2, g3, g4⟩ := C98_read_to_end Script.delivers chk (fun _ => true)
      (fun l => l.length + 1) (fun l => Nat.succ_pos _) (small d) h1 h2
    rw [ha] at g3
    cases r with
    | error e => cases (g4 e rfl).1
    | ok n =>
      obtain ⟨rfl, rfl⟩ := g3 n rfl
      exact ⟨s', g1⟩

/-- C98: an unlimited `GrowingBuffer` can hold what `read_exact` asks for. -/
example (chk : Bool) (d : Script Nat) (hr : d.rem = [4, 5, 6, 7]) :
    ∃ s', readExact chk (fun _ => true) ⟨1⟩ 3
      (Source.withBuffer d (GrowingBuffer.withLimit id 0 : GrowingBuffer Nat)) () =
        .ok ((.ok (), [4, 5, 6], s'), ()) := by
  obtain ⟨r, ys, s', g1, g2, g3, g4⟩ := C98_read_exact_any Script.delivers chk (fun _ => true) ⟨1⟩ 3
    (Source.withBuffer d (GrowingBuffer.withLimit id 0 : GrowingBuffer Nat))
    ((C48_new (S := Script Nat) (B := GrowingBuffer Nat)).2.2 id 0).1 ⟨rfl, by decide⟩
  rw [show ahead Script.rem (Source.withBuffer d (GrowingBuffer.withLimit id 0 : GrowingBuffer Nat)) =
    [4, 5, 6, 7] from hr] at g3 g4
  cases r with
  | error e =>
    obtain ⟨k1, ⟨_, k2⟩ | k2⟩ := g4 e rfl
    · subst k2; exact absurd k1 (by decide)
    · cases k2.1
  | ok u =>
    obtain ⟨rfl, _⟩ := g3 rfl
    exact ⟨s', g1⟩

/-- A source over a `GrowingBuffer` which has grown to two items and has been emptied again. -/
def grown (d : Script Nat) : Source (Script Nat) (GrowingBuffer Nat) :=
  Source.withBuffer d { (GrowingBuffer.withLimit id 0 : GrowingBuffer Nat) with
    buffer := [some 1, some 2], cap := 2, populated := 2, used := 2 }

theorem grown_usable (d : Script Nat) : Usable (grown d) ∧ 0 < (grown d).capacity ∧ (grown d).buffer.limit = 0 :=
  ⟨⟨⟨Nat.le_refl _, rfl, rfl, show 2 ≤ isizeMax by decide⟩, rfl⟩, show 0 < 2 by decide, rfl⟩

/-- C98: the pieces, over a `GrowingBuffer`. -/
example (chk : Bool) (d : Script Nat) (hr : d.rem = [4, 5, 0, 0, 7]) :
    ∃ s', split chk (fun _ => true) 0 (grown d) () = .ok ((.ok [[4, 5], [], [7]], s'), ()) := by
  obtain ⟨h1, h2, h3⟩ := grown_usable d
  obtain ⟨r, ys, s', g1, g2, g3, g4⟩ := C98_split_growing Script.delivers chk (fun _ => true) 0 (grown d) h1 h2 h3
  have ha : ahead Script.rem (grown d) = [4, 5, 0, 0, 7] := hr
  cases r with
  | error e => cases (g4 e rfl).1
  | ok n =>
    obtain ⟨rfl, _⟩ := g3 n rfl
    rw [ha] at g1
    exact ⟨s', g1⟩

end StdExample

end Chomp.Props
