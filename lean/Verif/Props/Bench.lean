import Verif.Props.Http
import Verif.Props.Repeat
import Verif.Props.Slice
import Verif.Props.Unroll

/-
C86: the benchmark (benches/http_bench.rs:119-175), which parses requests from a slice, one or many.
-/

namespace Chomp.Props

open Spec Spec.Http Chomp.Http

/-- No request begins here. -/
theorem request_stops {v : Bool} {m : Mode} {rest : List UInt8} :
    (∀ t x r, RequestText t x → rest ≠ t ++ r) ↔
      (∃ b e, request v ⟨m, rest⟩ () = .ok (.error b e, ())) ∨
        ∃ n, request v ⟨m, rest⟩ () = .ok (.incomplete n, ()) := by
  obtain ⟨r, w', hr⟩ := C63_total v ⟨m, rest⟩ ()
  constructor
  · intro h
    cases r with
    | data i x =>
      have hm := C71_keeps_mode (request_built v everything (by simp [Allow.Permits, everything])) _ _ _ _ _ hr
      obtain ⟨m', r⟩ := i
      dsimp only at hm
      subst hm
      obtain ⟨t, ht, he⟩ := (C63_grammar v m' rest r x).mp hr
      exact absurd he (h t x r ht)
    | error b e => exact .inl ⟨b, e, hr⟩
    | incomplete n => exact .inr ⟨n, hr⟩
  · intro h t x r ht he
    have := (C63_grammar v m rest r x).mpr ⟨t, ht, he⟩
    rw [this] at h
    rcases h with ⟨b, e, h⟩ | ⟨n, h⟩ <;> cases h

theorem requests_built (v : Bool) :
    Built everything (Comb.many (σ := σ) (Collect.vec (Request × List Header)) (request v)) :=
  .many _ (request_built v everything (by intro K h; cases h))

theorem reps_sequence {v : Bool} {m m' : Mode} {b rest : List UInt8} {xs : List (Request × List Header)} :
    Reps (request v) ⟨m, b⟩ () xs ⟨m', rest⟩ () ↔
      m' = m ∧ ∃ t, Sequence RequestText t xs ∧ b = t ++ rest := by
  induction xs generalizing b m with
  | nil =>
    constructor
    · rintro ⟨⟩
      exact ⟨rfl, [], .nil, rfl⟩
    · rintro ⟨rfl, t, ht, rfl⟩
      cases ht
      exact .nil
  | cons x xs ih =>
    constructor
    · intro h
      cases h with
      | cons h1 h2 =>
        have hm := C71_keeps_mode (request_built v everything (by intro K h; cases h)) _ _ _ _ _ h1
        rename_i i1 w1
        obtain ⟨m1, b1⟩ := i1
        dsimp only at hm
        subst hm
        obtain ⟨rfl, t, ht, rfl⟩ := ih.mp h2
        obtain ⟨u, hu, rfl⟩ := (C63_grammar v _ _ _ _).mp h1
        exact ⟨rfl, u ++ t, .cons hu ht, by simp⟩
    · rintro ⟨rfl, t, ht, rfl⟩
      cases ht with
      | cons h1 h2 =>
        refine .cons ((C63_grammar v m' _ _ x).mpr ⟨_, h1, List.append_assoc ..⟩) (ih.mpr ⟨rfl, _, h2, rfl⟩)

/-! ### C86 many requests in a slice -/

/-- `many(request)` reads requests as long as there are any. What follows the last one does not begin
with a request. -/
theorem C86_many (v : Bool) (b rest : List UInt8) (xs : List (Request × List Header)) :
    Comb.many (Collect.vec _) (request v) ⟨.endOfInput, b⟩ () = .ok (.data ⟨.endOfInput, rest⟩ xs, ()) ↔
      (∃ t, Sequence RequestText t xs ∧ b = t ++ rest) ∧
        ∀ t x r, RequestText t x → rest ≠ t ++ r := by
  rw [C23_many_ok, request_stops (v := v) (m := .endOfInput)]
  constructor
  · rintro ⟨⟨⟩, h1, h2⟩
    refine ⟨(reps_sequence.mp h1).2, ?_⟩
    rcases h2 with h2 | ⟨_, h2⟩
    · exact .inl h2
    · exact .inr h2
  · rintro ⟨h1, h2⟩
    refine ⟨(), reps_sequence.mpr ⟨rfl, h1⟩, ?_⟩
    rcases h2 with h2 | h2
    · exact .inl h2
    · exact .inr ⟨rfl, h2⟩

theorem split_requests (n : Nat) : ∀ b : List UInt8, b.length ≤ n → ∃ xs rest t,
    Sequence RequestText t xs ∧ b = t ++ rest ∧ ∀ t x r, RequestText t x → rest ≠ t ++ r := by
  induction n with
  | zero =>
    intro b hb
    refine ⟨[], b, [], .nil, rfl, ?_⟩
    rintro t x r ⟨⟨h, _⟩, _⟩ rfl
    simp only [List.length_append] at hb
    exact h (List.length_eq_zero_iff.mp (by omega))
  | succ n ih =>
    intro b hb
    by_cases h : ∃ t x r, RequestText t x ∧ b = t ++ r
    · obtain ⟨t, x, r, ht, rfl⟩ := h
      have hpos : 0 < t.length := by
        obtain ⟨⟨h, _⟩, _⟩ := ht
        have := List.length_pos_iff.mpr h
        simp only [List.length_append]
        omega
      simp only [List.length_append] at hb
      obtain ⟨xs, rest, u, h1, rfl, h3⟩ := ih r (by omega)
      exact ⟨x :: xs, rest, t ++ u, .cons ht h1, by simp, h3⟩
    · exact ⟨[], b, [], .nil, rfl, fun t x r ht he => h ⟨t, x, r, ht, he⟩⟩

/-- It always succeeds. -/
theorem C86_succeeds (v : Bool) (b : List UInt8) : ∃ xs rest,
    Comb.many (Collect.vec _) (request v) ⟨.endOfInput, b⟩ () =
      .ok (.data ⟨.endOfInput, rest⟩ xs, ()) := by
  obtain ⟨xs, rest, t, h1, h2, h3⟩ := split_requests _ b (Nat.le_refl _)
  exact ⟨xs, rest, (C86_many v b rest xs).mpr ⟨⟨t, h1, h2⟩, h3⟩⟩

theorem stream_data (chk : Bool) {p : Parser Unit UInt8 T (Error UInt8)} (hp : Built everything p)
    {b rest : List UInt8} {t : T} (hb : b ≠ []) (hl : b.length ≤ usizeMax)
    (h : p ⟨.endOfInput, b⟩ () = .ok (.data ⟨.endOfInput, rest⟩ t, ())) :
    ∃ s', (SliceStream.new b).parse chk p () = .ok ((.ok t, s'), ()) ∧ unread s' = rest := by
  obtain ⟨s', h1, _, _, h2⟩ := C42_data chk p hp (SliceStream.new b) ⟨Nat.zero_le _, hl⟩ hb () () _ t h
  exact ⟨s', h1, h2⟩

/-- `data.into_stream().parse(parser!{many(request)})`: the requests at the beginning of the slice, and the
stream goes on behind them. -/
theorem C86_stream (chk v : Bool) (b : List UInt8) (hb : b ≠ []) (hl : b.length ≤ usizeMax) :
    ∃ xs rest s', (SliceStream.new b).parse chk (Comb.many (Collect.vec _) (request v)) () =
        .ok ((.ok xs, s'), ()) ∧ unread s' = rest ∧
      (∃ t, Sequence RequestText t xs ∧ b = t ++ rest) ∧ ∀ t x r, RequestText t x → rest ≠ t ++ r := by
  obtain ⟨xs, rest, h⟩ := C86_succeeds v b
  obtain ⟨s', h1, h2⟩ := stream_data chk (requests_built v) hb hl h
  exact ⟨xs, rest, s', h1, h2, (C86_many v b rest xs).mp h⟩

/-- Requests which are written one after the other are all returned, and nothing is left. -/
theorem C86_printed (chk v : Bool) (xs : List (Request × List Header)) (hx : xs ≠ [])
    (hw : ∀ x ∈ xs, WellFormed x) (hl : (xs.flatMap print).length ≤ usizeMax) :
    ∃ s', (SliceStream.new (xs.flatMap print)).parse chk (Comb.many (Collect.vec _) (request v)) () =
      .ok ((.ok xs, s'), ()) ∧ unread s' = [] := by
  have hs : ∀ ys : List (Request × List Header), (∀ x ∈ ys, WellFormed x) →
      Sequence RequestText (ys.flatMap print) ys := by
    intro ys
    induction ys with
    | nil => exact fun _ => .nil
    | cons y ys ih =>
      intro h
      rw [List.flatMap_cons]
      exact .cons (C63_print y (h y (by simp))) (ih fun x hx => h x (by simp [hx]))
  have hne : xs.flatMap print ≠ [] := by
    cases xs with
    | nil => exact absurd rfl hx
    | cons x xs =>
      rw [List.flatMap_cons]
      intro he
      exact absurd (List.append_eq_nil_iff.mp he).1 (by simp [print, bytes])
  have h := (C86_many v (xs.flatMap print) [] xs).mpr ⟨⟨_, hs xs hw, by simp⟩, ?_⟩
  · exact stream_data chk (requests_built v) hne hl h
  · rintro t x r ⟨⟨h, _⟩, _⟩ he
    simp at he
    exact h he.1

/-- `data.into_stream().parse(request)`: a single request, and the stream goes on behind it. -/
theorem C86_single (chk v : Bool) (x : Request × List Header) (t rest : List UInt8)
    (ht : RequestText t x) (hl : (t ++ rest).length ≤ usizeMax) :
    ∃ s', (SliceStream.new (t ++ rest)).parse chk (request v) () = .ok ((.ok x, s'), ()) ∧
      unread s' = rest := by
  have hne : t ++ rest ≠ [] := by
    obtain ⟨⟨h, _⟩, _⟩ := ht
    simp [h]
  have h := (C63_grammar v .endOfInput (t ++ rest) rest x).mpr ⟨t, ht, rfl⟩
  exact stream_data chk (request_built v everything (by intro K h; cases h)) hne hl h

/-! ### Examples -/

namespace BenchEx

/-- The request of `single_request_minimal`, benches/http_bench.rs:137-147. -/
def minimal : Request × List Header :=
  (⟨bytes "GET", bytes "/", bytes "1.1"⟩, [⟨bytes "Host", [bytes "localhost"]⟩])

theorem minimal_well_formed : WellFormed minimal where
  method := ⟨by decide, by unfold Token; decide⟩
  uri := ⟨by decide, by decide⟩
  version := ⟨by decide, by unfold Version; decide⟩
  names := by unfold Run Token; decide
  values := by decide
  lines := by decide
  starts := by
    intro h hh l hl c r e
    simp only [minimal, List.mem_singleton] at hh
    subst hh
    simp only [List.mem_singleton] at hl
    subst hl
    rw [show bytes "localhost" = [108, 111, 99, 97, 108, 104, 111, 115, 116] from by decide] at e
    cases e
    decide

/-- The last CR of the data is left over. -/
example (chk v : Bool) : ∃ s',
    (SliceStream.new (bytes "GET / HTTP/1.1\r\nHost: localhost\r\n\r\n\r")).parse chk (request v) () =
      .ok ((.ok minimal, s'), ()) ∧ unread s' = bytes "\r" :=
  C86_single chk v minimal (print minimal) (bytes "\r") (C63_print _ minimal_well_formed) (by decide)

example (chk v : Bool) : ∃ s', (SliceStream.new (print minimal ++ (print HttpEx.get ++ []))).parse chk
      (Comb.many (Collect.vec _) (request v)) () = .ok ((.ok [minimal, HttpEx.get], s'), ()) ∧ unread s' = [] :=
  C86_printed chk v [minimal, HttpEx.get] nofun
    (by
      intro x hx
      simp only [List.mem_cons, List.not_mem_nil, or_false] at hx
      rcases hx with rfl | rfl
      · exact minimal_well_formed
      · exact HttpEx.get_well_formed) (by decide)

end BenchEx

end Chomp.Props
