import Verif.Lemmas.Main
import Verif.Props.Records

/-
C63, C70: the HTTP example, examples/http_parser.rs. The grammar is in Verif/Spec/Http.lean.
-/

namespace Chomp.Props

open Spec Spec.Http
open Chomp.Http (Request Header request messageHeader messageHeaderLine endOfLine httpVersion
  requestLine counter mainStep main)

theorem endOfLine_built (a : Allow) (v : Bool) : Built a (endOfLine (σ := σ) v) :=
  .or (.andThen (.token _ _) (.andThen (.token _ _) (.ret _))) (.token _ _)

theorem request_built (v : Bool) (a : Allow) (ha : a.Permits 5) : Built a (request (σ := σ) v) :=
  .bind (.bind (.takeWhile1 _ _) fun _ => .andThen (.takeWhile1 _ _) <|
    .bind (.takeWhile1 _ _) fun _ => .andThen (.takeWhile1 _ _) <|
    .bind (.andThen (.string _ _ ha) (.takeWhile1 _ _)) fun _ => .ret _) fun _ =>
  .andThen (endOfLine_built a v) <|
  .bind (.many _ (.bind (.takeWhile1 _ _) fun _ => .andThen (.token _ _) <|
    .bind (.many1 _ (.andThen (.takeWhile1 _ _) <| .bind (.takeTill _) fun _ =>
      .andThen (endOfLine_built a v) (.ret _))) fun _ => .ret _)) fun _ =>
  .andThen (endOfLine_built a v) (.ret _)

theorem endOfLine_productive (v : Bool) : Productive true (endOfLine (σ := σ) v) :=
  .or (a := true) (b := true) (.andThen (a := true) (b := true) (.token _ _)
    (.andThen (a := true) (b := false) (.token _ _) (.ret _))) (.token _ _)

theorem request_productive (v : Bool) : Productive true (request (σ := σ) v) :=
  .bind (a := true) (b := true)
    (.bind (a := true) (b := true) (.takeWhile1 _ _) fun _ =>
      .andThen (a := true) (b := true) (.takeWhile1 _ _) <|
      .bind (a := true) (b := true) (.takeWhile1 _ _) fun _ =>
      .andThen (a := true) (b := true) (.takeWhile1 _ _) <|
      .bind (a := true) (b := false)
        (.andThen (a := true) (b := true) (.string _ [72, 84, 84, 80, 47]) (.takeWhile1 _ _)) fun _ =>
      .ret _) fun _ =>
  .andThen (a := true) (b := true) (endOfLine_productive v) <|
  .bind (a := false) (b := true) (.many _
    (.bind (a := true) (b := true) (.takeWhile1 _ _) fun _ =>
      .andThen (a := true) (b := true) (.token _ _) <|
      .bind (a := true) (b := false) (.many1 _
        (.andThen (a := true) (b := true) (.takeWhile1 _ _) <|
          .bind (a := false) (b := true) (.takeTill _) fun _ =>
          .andThen (a := true) (b := false) (endOfLine_productive v) (.ret _))) fun _ => .ret _)) fun _ =>
  .andThen (a := true) (b := false) (endOfLine_productive v) (.ret _)

/-! ### C63: the parser -/

/-- The parser returns on every slice, without a panic. -/
theorem C63_total (v : Bool) (i : Input UInt8) (w : σ) : ∃ r w', request v i w = .ok (r, w') :=
  C69_total (request_productive v) (request_built v _ (by intro K h; cases h)) i w

/-- It accepts exactly the grammar, whether or not the input is at its end: a success stands for a
request at the beginning of the slice, the remainder for what follows it. -/
theorem C63_grammar (v : Bool) (m : Mode) (b rest : List UInt8) (x : Request × List Header) :
    request v ⟨m, b⟩ () = .ok (.data ⟨m, rest⟩ x, ()) ↔ ∃ t, RequestText t x ∧ b = t ++ rest := by
  rw [Http.request_data]
  simp

/-- No request is the beginning of another one, and none can be read in two ways. -/
theorem C63_unambiguous (t t' rest rest' : List UInt8) (x x' : Request × List Header)
    (h : RequestText t x) (h' : RequestText t' x') (he : t ++ rest = t' ++ rest') :
    x = x' ∧ t = t' ∧ rest = rest' := by
  have h1 := (C63_grammar true .default _ rest x).mpr ⟨t, h, rfl⟩
  have h2 := (C63_grammar true .default _ rest' x').mpr ⟨t', h', rfl⟩
  rw [he, h2] at h1
  cases h1
  exact ⟨rfl, List.append_cancel_right he, rfl⟩

/-- What is parsed can be written down again. -/
theorem C63_well_formed (t : List UInt8) (x : Request × List Header) (h : RequestText t x) :
    WellFormed x := by
  obtain ⟨h1, _, h3, _, h5, _, h7, _⟩ := h
  have lines : ∀ {b ls}, Sequence LineText b ls → ∀ l ∈ ls, (∀ c ∈ l, c ≠ byte '\r' ∧ c ≠ byte '\n') ∧
      ∀ c r, l = c :: r → c ≠ byte ' ' ∧ c ≠ byte '\t' := by
    intro b ls h
    induction h with
    | nil => exact nofun
    | cons ht _ ih =>
      intro l hl
      rcases List.mem_cons.mp hl with rfl | hl
      · obtain ⟨_, g1, g2, _⟩ := ht
        exact ⟨g1, g2⟩
      · exact ih l hl
  have headers : ∀ {b hs}, Sequence HeaderText b hs → ∀ h ∈ hs, Run Token h.name ∧ h.value ≠ [] ∧
      ∀ l ∈ h.value, (∀ c ∈ l, c ≠ byte '\r' ∧ c ≠ byte '\n') ∧
        ∀ c r, l = c :: r → c ≠ byte ' ' ∧ c ≠ byte '\t' := by
    intro b hs h
    induction h with
    | nil => exact nofun
    | cons ht _ ih =>
      intro l hl
      rcases List.mem_cons.mp hl with rfl | hl
      · obtain ⟨g1, g2, g3⟩ := ht
        exact ⟨g1, g3, lines g2⟩
      · exact ih l hl
  exact ⟨h1, h3, h5, fun h hh => (headers h7 h hh).1, fun h hh => (headers h7 h hh).2.1,
    fun h hh l hl => ((headers h7 h hh).2.2 l hl).1, fun h hh l hl => ((headers h7 h hh).2.2 l hl).2⟩

/-- The canonical text of a request is a text of it. -/
theorem C63_print (x : Request × List Header) (h : WellFormed x) : RequestText (print x) x := by
  have lines : ∀ ls : List (List UInt8), (∀ l ∈ ls, (∀ c ∈ l, c ≠ byte '\r' ∧ c ≠ byte '\n') ∧
      ∀ c r, l = c :: r → c ≠ byte ' ' ∧ c ≠ byte '\t') →
      Sequence LineText (ls.flatMap (fun l => bytes " " ++ l ++ bytes "\r\n")) ls := by
    intro ls
    induction ls with
    | nil => intro _; exact .nil
    | cons l ls ih =>
      intro hl
      refine .cons (.mk (by simp [Run, bytes, byte]) (hl l (by simp)).1 (hl l (by simp)).2 (.inl rfl))
        (ih fun l h => hl l (by simp [h]))
  have headers : ∀ hs : List Header, (∀ h ∈ hs, Run Token h.name ∧ h.value ≠ [] ∧
      ∀ l ∈ h.value, (∀ c ∈ l, c ≠ byte '\r' ∧ c ≠ byte '\n') ∧
        ∀ c r, l = c :: r → c ≠ byte ' ' ∧ c ≠ byte '\t') →
      Sequence HeaderText (hs.flatMap printHeader) hs := by
    intro hs
    induction hs with
    | nil => intro _; exact .nil
    | cons x hs ih =>
      intro hh
      obtain ⟨g1, g2, g3⟩ := hh x (by simp)
      exact .cons (.mk g1 (lines _ g3) g2) (ih fun l h => hh l (by simp [h]))
  exact .mk h.method (by simp [Run, bytes, byte]) h.uri (by simp [Run, bytes, byte]) h.version (.inl rfl)
    (headers x.2 fun y hy => ⟨h.names y hy, h.values y hy, fun l hl => ⟨h.lines y hy l hl, h.starts y hy l hl⟩⟩)
    (.inl rfl)

/-- Printing, then parsing: the request comes back, with whatever follows it left alone. -/
theorem C63_round_trip (v : Bool) (m : Mode) (x : Request × List Header) (h : WellFormed x)
    (rest : List UInt8) : request v ⟨m, print x ++ rest⟩ () = .ok (.data ⟨m, rest⟩ x, ()) :=
  (C63_grammar v m _ rest x).mpr ⟨_, C63_print x h, rfl⟩

/-- Parsing, printing, then parsing: the same request. -/
theorem C63_reprint (v : Bool) (m m' : Mode) (b rest rest' : List UInt8) (x : Request × List Header)
    (h : request v ⟨m, b⟩ () = .ok (.data ⟨m, rest⟩ x, ())) :
    request v ⟨m', print x ++ rest'⟩ () = .ok (.data ⟨m', rest'⟩ x, ()) := by
  obtain ⟨t, ht, _⟩ := (C63_grammar v m b rest x).mp h
  exact C63_round_trip v m' x (C63_well_formed t x ht) rest'

/-- One retry loop, over any source and any lawful buffer which is large enough: the outcome is that
on all of the data in one slice, so it does not depend on the chunks. -/
theorem C63_retry {S B : Type} [DataSource S UInt8] [HonestSource S UInt8] [Buffer B UInt8]
    [LawfulBuffer B UInt8] {rem : S → List UInt8} {errs : S → Nat} (hd : Delivers S rem errs)
    (chk v : Bool) (s : Source S B) (h : Ready rem s) (hne : ahead rem s ≠ [])
    (hc : LawfulBuffer.CanHold s.buffer ((ahead rem s).length + 5))
    (hu : (ahead rem s).length + 5 ≤ usizeMax) :
    Agrees rem s (request v ⟨.endOfInput, ahead rem s⟩ ()) (retry chk (request v) s ()) :=
  C51_retry hd chk (request_built v _ (by intro K h; cases h)) s h hne
    (C51_fits (K := 5) (request_built v _ (by intro K h; cases h; exact Nat.le_refl _)) _ _ hc hu)

/-! ### C70: the program -/

theorem request_record (v : Bool) : RecordParser 5 (request v) where
  built := request_built v _ (by intro K h; cases h; exact Nat.le_refl _)
  returns i := by
    obtain ⟨r, _, h⟩ := C63_total (σ := Unit) v i ()
    exact ⟨r, h⟩
  consumes i i' t h := C69_consumes (request_productive v) i i' t () () h
  empty := ⟨1, rfl⟩
  delimited b r t h := (C63_grammar v .default b r t).mpr ((C63_grammar v .endOfInput b r t).mp h)

/-- A request at the beginning which fits a buffer of the given size. -/
theorem request_first (v : Bool) (size : Nat) (b rest : List UInt8) (x : Request × List Header) :
    First (request v) size b x rest ↔ ∃ t, ShortRequest size t x ∧ b = t ++ rest := by
  have fits : ∀ t, RequestText t x → (First (request v) size (t ++ rest) x rest ↔ t.length ≤ size) :=
    fun t ht => C68_fits (request_record v) t rest x
      ((C63_grammar v .default t [] x).mpr ⟨t, ht, by simp⟩)
  constructor
  · intro h
    obtain ⟨t, ht, rfl⟩ := (C63_grammar v .endOfInput b rest x).mp h.parses
    exact ⟨t, ⟨ht, (fits t ht).mp h⟩, rfl⟩
  · rintro ⟨t, ⟨ht, hl⟩, rfl⟩
    exact (fits t ht).mpr hl

theorem request_records (v : Bool) (size : Nat) (b : List UInt8) (xs : List (Request × List Header)) :
    Records (request v) size b xs [] ↔ Sequence (ShortRequest size) b xs := by
  constructor
  · intro h
    generalize hr : ([] : List UInt8) = rest at h
    induction h with
    | nil => rw [← hr]; exact .nil
    | cons h1 _ ih =>
      obtain ⟨t, ht, rfl⟩ := (request_first v size _ _ _).mp h1
      exact .cons ht (ih hr)
  · intro h
    induction h with
    | nil => exact .nil
    | cons h1 _ ih => exact .cons ((request_first v size _ _ _).mpr ⟨_, h1, rfl⟩) ih

section
variable {R : Type} [DataSource R UInt8] [HonestSource R UInt8] {rem : R → List UInt8} {errs : R → Nat}

/-- What the program does, for every file without read errors, in terms of the requests it begins
with. -/
theorem main_cases (hd : Delivers R rem errs) (chk v : Bool) (file : R) (hq : errs file = 0)
    (hl : (rem file).length + 5 ≤ usizeMax) :
    ∃ xs rest, Records (request v) (6 * 1024) (rem file) xs rest ∧
      (∀ t r, ¬ First (request v) (6 * 1024) rest t r) ∧
      ((rest = [] ∧ main chk v file () = xs.foldlM (Http.tick chk) 0 >>= fun n => .ok (n, ())) ∨
       (rest ≠ [] ∧ main chk v file () = .panic)) := by
  obtain ⟨b, hb, _⟩ := FixedSizeBuffer.withSize_inv (I := UInt8) (n := 6 * 1024) (by decide) (by decide)
  have hm : main chk v file () =
      loop (mainStep chk v) (Source.withBuffer (⟨file⟩ : ReadDataSource R) b, 0) () := by
    unfold main Source.new FixedSizeBuffer.new
    rw [hb, Res.bind_ok, M.bind_ok (M.lift_ok _ _)]
  have hd' := ReadDataSource.delivers hd
  obtain ⟨hr, ha⟩ := records_new (rem := fun s : ReadDataSource R => rem s.inner)
    (errs := fun s : ReadDataSource R => errs s.inner) (p := request v) hb ⟨file⟩ hq
  have hdiv := C68_returns hd' chk (request_record v) (by decide) (Http.tick chk) 0 ⟨file⟩ b hb hq hl
    (Http.tick_ne chk)
  obtain ⟨xs, rest, h1, h2, h3⟩ := records_cases hd' chk (request_record v) (by decide)
    (Http.tick chk) _ hr (by rw [ha]; exact hl) 0
  rw [ha] at h1
  refine ⟨xs, rest, h1, h2, ?_⟩
  rw [hm, Http.main_loop chk v _ _ _ hdiv]
  rcases h3 with ⟨g, h3⟩ | ⟨g, e, _, _, h3⟩
  · refine .inl ⟨g, ?_⟩
    rw [h3]
    cases xs.foldlM (Http.tick chk) 0 <;> rfl
  · refine .inr ⟨g, ?_⟩
    rw [h3] at hdiv ⊢
    have hub : ∀ (xs : List (Request × List Header)) n, xs.foldlM (Http.tick chk) n ≠ .ub := by
      intro xs
      induction xs with
      | nil => intro n; exact nofun
      | cons x xs ih =>
        intro n
        rw [List.foldlM_cons]
        cases ht : Http.tick chk n x with
        | ok y => exact ih y
        | ub =>
          unfold Http.tick Ascii.IntTy.num Ascii.IntTy.norm at ht
          dsimp only at ht
          split at ht
          · cases ht
          · split at ht <;> cases ht
        | _ => exact nofun
    cases hx : xs.foldlM (Http.tick chk) 0 with
    | ok n => rfl
    | panic => rfl
    | ub => exact absurd hx (hub xs 0)
    | div => rw [hx] at hdiv; exact absurd rfl hdiv

/-- If the file consists of requests of at most 6 KiB each, fewer than 2³¹, the program prints how many
there are. How the operating system splits the file does not matter. -/
theorem C70_counts (hd : Delivers R rem errs) (chk v : Bool) (file : R) (hq : errs file = 0)
    (hl : (rem file).length + 5 ≤ usizeMax) (xs : List (Request × List Header))
    (h : Sequence (ShortRequest 6144) (rem file) xs) (hn : xs.length < 2 ^ 31) :
    main chk v file () = .ok ((xs.length : Int), ()) := by
  obtain ⟨ys, rest, h1, h2, h3⟩ := main_cases hd chk v file hq hl
  have hx := (request_records v 6144 _ _).mpr h
  obtain ⟨rfl, rfl⟩ := hx.unique h1 (by
    intro t r hf
    exact absurd ((request_record v).consumes _ _ _ hf.parses) (Nat.not_lt_zero _)) h2
  rcases h3 with ⟨_, h3⟩ | ⟨h3, _⟩
  · rw [h3]
    have := Http.tick_fold chk xs 0 (by omega)
    rw [Nat.zero_add] at this
    rw [show (0 : Int) = ((0 : Nat) : Int) from rfl, this]
    rfl
  · exact absurd rfl h3

/-- If not, it panics. -/
theorem C70_panics (hd : Delivers R rem errs) (chk v : Bool) (file : R) (hq : errs file = 0)
    (hl : (rem file).length + 5 ≤ usizeMax)
    (h : ∀ xs, ¬ Sequence (ShortRequest 6144) (rem file) xs) : main chk v file () = .panic := by
  obtain ⟨ys, rest, h1, h2, ⟨rfl, h3⟩ | ⟨_, h3⟩⟩ := main_cases hd chk v file hq hl
  · exact absurd ((request_records v 6144 _ _).mp h1) (h ys)
  · exact h3

/-- In particular if one of the requests is longer than 6 KiB, the default size of the buffer. -/
theorem C70_long (hd : Delivers R rem errs) (chk v : Bool) (file : R) (hq : errs file = 0)
    (hl : (rem file).length + 5 ≤ usizeMax) (before t rest : List UInt8)
    (xs : List (Request × List Header)) (x : Request × List Header)
    (h1 : Sequence (ShortRequest 6144) before xs) (h2 : RequestText t x) (h3 : 6144 < t.length)
    (hf : rem file = before ++ t ++ rest) : main chk v file () = .panic := by
  apply C70_panics hd chk v file hq hl
  rw [hf]
  clear hf
  intro ys hy
  induction h1 generalizing ys with
  | nil =>
    rw [List.nil_append] at hy
    generalize hb : t ++ rest = b at hy
    cases hy with
    | nil =>
      have := congrArg List.length hb
      simp only [List.length_append, List.length_nil] at this
      omega
    | cons g _ =>
      obtain ⟨_, rfl, _⟩ := C63_unambiguous _ _ _ _ _ _ h2 g.1 hb
      exact absurd g.2 (by omega)
  | @cons b1 x1 bs xs g1 _ ih =>
    rw [List.append_assoc, List.append_assoc] at hy
    generalize hb : b1 ++ (bs ++ (t ++ rest)) = b at hy
    cases hy with
    | nil =>
      have := congrArg List.length hb
      simp only [List.length_append, List.length_nil] at this
      omega
    | cons g g' =>
      obtain ⟨_, rfl, rfl⟩ := C63_unambiguous _ _ _ _ _ _ g1.1 g.1 hb
      exact ih _ (by rw [List.append_assoc]; exact g')

/-- With 2³¹ requests or more the counter, an `i32`, overflows: a debug build panics. -/
theorem C70_overflow_debug (hd : Delivers R rem errs) (v : Bool) (file : R) (hq : errs file = 0)
    (hl : (rem file).length + 5 ≤ usizeMax) (xs : List (Request × List Header))
    (h : Sequence (ShortRequest 6144) (rem file) xs) (hn : 2 ^ 31 ≤ xs.length) :
    main true v file () = .panic := by
  obtain ⟨ys, rest, h1, h2, h3⟩ := main_cases hd true v file hq hl
  have hx := (request_records v 6144 _ _).mpr h
  obtain ⟨rfl, rfl⟩ := hx.unique h1 (by
    intro t r hf
    exact absurd ((request_record v).consumes _ _ _ hf.parses) (Nat.not_lt_zero _)) h2
  rcases h3 with ⟨_, h3⟩ | ⟨h3, _⟩
  · rw [h3]
    have := Http.tick_overflow xs 0 (by omega) (by omega)
    rw [show (0 : Int) = ((0 : Nat) : Int) from rfl, this]
    rfl
  · exact absurd rfl h3

/-- A release build prints the number modulo 2³², as a signed number. -/
theorem C70_overflow_release (hd : Delivers R rem errs) (v : Bool) (file : R) (hq : errs file = 0)
    (hl : (rem file).length + 5 ≤ usizeMax) (xs : List (Request × List Header))
    (h : Sequence (ShortRequest 6144) (rem file) xs) :
    main false v file () = .ok (Int.bmod xs.length (2 ^ 32), ()) := by
  obtain ⟨ys, rest, h1, h2, h3⟩ := main_cases hd false v file hq hl
  have hx := (request_records v 6144 _ _).mpr h
  obtain ⟨rfl, rfl⟩ := hx.unique h1 (by
    intro t r hf
    exact absurd ((request_record v).consumes _ _ _ hf.parses) (Nat.not_lt_zero _)) h2
  rcases h3 with ⟨_, h3⟩ | ⟨h3, _⟩
  · rw [h3]
    have := Http.tick_wrap xs 0
    rw [Int.zero_bmod, Int.zero_add] at this
    rw [this]
    rfl
  · exact absurd rfl h3

/-- It always comes to an end. -/
theorem C70_returns (hd : Delivers R rem errs) (chk v : Bool) (file : R) (hq : errs file = 0)
    (hl : (rem file).length + 5 ≤ usizeMax) : main chk v file () = .panic ∨
      ∃ n, main chk v file () = .ok (n, ()) := by
  by_cases h : ∃ xs, Sequence (ShortRequest 6144) (rem file) xs
  · obtain ⟨xs, h⟩ := h
    cases chk with
    | false => exact .inr ⟨_, C70_overflow_release hd v file hq hl xs h⟩
    | true =>
      by_cases hn : xs.length < 2 ^ 31
      · exact .inr ⟨_, C70_counts hd true v file hq hl xs h hn⟩
      · exact .inl (C70_overflow_debug hd v file hq hl xs h (by omega))
  · exact .inl (C70_panics hd chk v file hq hl fun xs hx => h ⟨xs, hx⟩)

/-- The other direction: whatever is printed by a debug build is the number of requests in the file. -/
theorem C70_exact (hd : Delivers R rem errs) (v : Bool) (file : R) (hq : errs file = 0)
    (hl : (rem file).length + 5 ≤ usizeMax) (n : Int) :
    main true v file () = .ok (n, ()) ↔
      ∃ xs, Sequence (ShortRequest 6144) (rem file) xs ∧ xs.length < 2 ^ 31 ∧ n = xs.length := by
  constructor
  · intro h
    by_cases hs : ∃ xs, Sequence (ShortRequest 6144) (rem file) xs
    · obtain ⟨xs, hs⟩ := hs
      by_cases hn : xs.length < 2 ^ 31
      · have := C70_counts hd true v file hq hl xs hs hn
        rw [h] at this
        cases this
        exact ⟨xs, hs, hn, rfl⟩
      · rw [C70_overflow_debug hd v file hq hl xs hs (by omega)] at h
        cases h
    · rw [C70_panics hd true v file hq hl fun xs hx => hs ⟨xs, hx⟩] at h
      cases h
  · rintro ⟨xs, h, hn, rfl⟩
    exact C70_counts hd true v file hq hl xs h hn

end

/-! ### Examples -/

namespace HttpEx

/-- `GET /x HTTP/1.1`, with one header of two lines. -/
def get : Request × List Header :=
  (⟨bytes "GET", bytes "/x", bytes "1.1"⟩, [⟨bytes "Host", [bytes "a b", bytes ""]⟩])

theorem get_well_formed : WellFormed get where
  method := ⟨by decide, by unfold Token; decide⟩
  uri := ⟨by decide, by decide⟩
  version := ⟨by decide, by unfold Version; decide⟩
  names := by unfold Run Token; decide
  values := by decide
  lines := by decide
  starts := by
    intro h hh l hl c r e
    simp only [get, List.mem_singleton] at hh
    subst hh
    simp only [List.mem_cons, List.not_mem_nil, or_false] at hl
    rcases hl with rfl | rfl
    · rw [show bytes "a b" = [97, 32, 98] from by decide] at e
      cases e
      decide
    · cases e

theorem get_print : print get = bytes "GET /x HTTP/1.1\r\nHost: a b\r\n \r\n\r\n" := by decide

/-- Texts other than the canonical one. -/
theorem get_text : RequestText (bytes "GET  /x  HTTP/1.1\nHost:\ta b\n \r\n\n") get :=
  .mk (method := bytes "GET") (blank := bytes "  ") (uri := bytes "/x") (blank' := bytes "  ")
    (version := bytes "1.1") (eol := bytes "\n") (hs := bytes "Host:\ta b\n \r\n") (eol' := bytes "\n")
    get_well_formed.method ⟨by decide, by decide⟩ get_well_formed.uri ⟨by decide, by decide⟩
    get_well_formed.version (.inr rfl)
    (.cons (b := bytes "Host:\ta b\n \r\n") (bs := [])
      (.mk (name := bytes "Host") (lines := bytes "\ta b\n \r\n")
        (get_well_formed.names _ (List.mem_singleton.mpr rfl))
        (.cons (b := bytes "\ta b\n") (bs := bytes " \r\n")
          (.mk (blank := bytes "\t") (line := bytes "a b") (eol := bytes "\n") ⟨by decide, by decide⟩
            (get_well_formed.lines _ (List.mem_singleton.mpr rfl) _ (by simp))
            (get_well_formed.starts _ (List.mem_singleton.mpr rfl) _ (by simp)) (.inr rfl))
          (.cons (b := bytes " \r\n") (bs := [])
            (.mk (blank := bytes " ") (line := []) (eol := bytes "\r\n") ⟨by decide, by decide⟩
              (by decide) nofun (.inl rfl)) .nil))
        (by simp)) .nil)
    (.inr rfl)

example (v : Bool) (m : Mode) (rest : List UInt8) :
    request v ⟨m, bytes "GET  /x  HTTP/1.1\nHost:\ta b\n \r\n\n" ++ rest⟩ () =
      .ok (.data ⟨m, rest⟩ get, ()) :=
  (C63_grammar v m _ rest get).mpr ⟨_, get_text, rfl⟩

example (v : Bool) (m : Mode) : request v ⟨m, print get ++ [1, 2]⟩ () = .ok (.data ⟨m, [1, 2]⟩ get, ()) :=
  C63_round_trip v m get get_well_formed [1, 2]

example : WellFormed get := C63_well_formed _ _ get_text

/-- Two requests, the file is read in three pieces. -/
def file : Script UInt8 := ⟨[.data 71 (bytes "ET /x HTTP/1.1\r"),
  .data 10 (bytes "Host: a b\r\n \r\n\r\nGET  /x  HTT"), .data 80 (bytes "/1.1\nHost:\ta b\n \r\n\n")]⟩

theorem file_requests : Sequence (ShortRequest 6144) file.rem [get, get] := by
  have e : file.rem = print get ++ (bytes "GET  /x  HTTP/1.1\nHost:\ta b\n \r\n\n" ++ []) := by decide
  rw [e]
  exact .cons ⟨C63_print get get_well_formed, by decide⟩ (.cons ⟨get_text, by decide⟩ .nil)

example (chk v : Bool) : main chk v file () = .ok (2, ()) :=
  C70_counts Script.delivers chk v file rfl (by decide) _ file_requests (by decide)

/-- Something else. -/
example (chk v : Bool) : main chk v (⟨[.data 120 []]⟩ : Script UInt8) () = .panic := by
  refine C70_panics Script.delivers chk v _ rfl (by decide) fun xs h => ?_
  have h := (request_records v 6144 _ _).mpr h
  have e : request v ⟨.endOfInput, [120]⟩ () = .ok (.incomplete 1, ()) := rfl
  have e2 : Script.rem (⟨[.data 120 []]⟩ : Script UInt8) = [120] := rfl
  rw [e2] at h
  cases h with
  | cons g _ =>
    have := g.parses
    rw [e] at this
    cases this

/-- A path of 6 KiB is too long for the program. -/
example (chk v : Bool) (path tail : List UInt8) (hp : ∀ c ∈ path, c ≠ 32)
    (h1 : 6144 ≤ path.length) (h2 : path.length + tail.length < 10000) : main chk v
    (⟨[.data 71 (bytes "ET " ++ path ++ bytes " HTTP/1.1\r\n\r\n" ++ tail)]⟩ :
      Script UInt8) () = .panic := by
  have hx : WellFormed (⟨bytes "GET", path, bytes "1.1"⟩, []) :=
    ⟨get_well_formed.method, ⟨by rintro rfl; simp at h1, hp⟩, get_well_formed.version,
      nofun, nofun, nofun, nofun⟩
  refine C70_long Script.delivers chk v _ rfl ?_ [] _ tail [] _ .nil (C63_print _ hx) ?_ ?_
  · simp [Script.rem, usizeMax, bytes]
    omega
  · simp [print, bytes]
    omega
  · simp [Script.rem, print, bytes]
    decide

end HttpEx

end Chomp.Props
