import Verif.Props.Laws
import Verif.Props.Repeat
import Verif.Props.Till
import Verif.Props.Slice

/-
C93: parsers for slices and repetitions of parsers for items.
-/

namespace Chomp.Props

open Spec Unroll Parsers

/-! ### Values -/

theorem reps_satisfy (v : Bool) (f : I → Bool) (m : Mode) (x y : List I) (hx : ∀ a ∈ x, f a = true)
    (w : σ) : Reps (satisfy v f) ⟨m, x ++ y⟩ w x ⟨m, y⟩ w := by
  induction x with
  | nil => exact .nil
  | cons c x ih =>
    exact .cons ((C11_satisfy v f m w).2.1 c (x ++ y) (hx c (by simp)))
      (ih fun a ha => hx a (by simp [ha]))

/-- `take_while(f)` is `many(satisfy(f))`, where the items are collected in a `Vec`. -/
theorem C93_take_while (v : Bool) (f : I → Bool) :
    takeWhile (σ := σ) f = Comb.many (Collect.vec I) (satisfy v f) := by
  funext i w
  obtain ⟨m, b⟩ := i
  obtain ⟨x, y, rfl, h⟩ := MaxPrefix.exists f b
  rw [C13_take_while f m x y h w]
  refine ((C23_many _ _ _ _ (fun hd => by cases hd)).mpr ?_).symm
  have hr := reps_satisfy v f m x y h.1 w
  have hb : Below x.length none := nofun
  cases y with
  | nil =>
    have hi : satisfy v f ⟨m, []⟩ w = .ok (.incomplete 1, w) := (C11_satisfy v f m w).1
    cases m with
    | default => exact .incomplete hr hb hi (.inr rfl)
    | endOfInput => exact .stop_last hr hb hi (Nat.zero_le _) rfl
  | cons c y =>
    rw [if_neg (fun h => by cases h.2)]
    exact .stop_error hr hb ((C11_satisfy v f m w).2.2 c y (h.2 c y rfl)) (Nat.zero_le _)

/-- `take_while1(f)` is `many1(satisfy(f))`. -/
theorem C93_take_while1 (v : Bool) (f : I → Bool) :
    takeWhile1 (σ := σ) v f = Comb.many1 (Collect.vec I) (satisfy v f) := by
  funext i w
  obtain ⟨m, b⟩ := i
  obtain ⟨x, y, rfl, h⟩ := MaxPrefix.exists f b
  refine ((C24_many1 _ _ _ _ (fun hd => ?_)).mpr ?_).symm
  · rw [takeWhile1_eq] at hd; cases hd
  have hr := reps_satisfy v f m x y h.1 w
  have hb : Below x.length none := nofun
  cases y with
  | nil =>
    have hi : satisfy v f ⟨m, []⟩ w = .ok (.incomplete 1, w) := (C11_satisfy v f m w).1
    cases x with
    | nil =>
      rw [List.append_nil, C14_take_while1_empty]
      exact .incomplete hr hb hi (.inl (Nat.lt_succ_self 0))
    | cons a x =>
      rw [C14_take_while1 v f m (a :: x) [] nofun h w]
      cases m with
      | default => exact .incomplete hr hb hi (.inr rfl)
      | endOfInput => exact .stop_last hr hb hi (Nat.succ_le_succ (Nat.zero_le _)) rfl
  | cons c y =>
    have he := (C11_satisfy v f m w).2.2 c y (h.2 c y rfl)
    cases x with
    | nil =>
      rw [List.nil_append, C14_take_while1_err v f m c y (h.2 c y rfl) w]
      exact .error hr hb he (Nat.lt_succ_self 0)
    | cons a x =>
      rw [C14_take_while1 v f m (a :: x) (c :: y) nofun h w, if_neg (fun h => by cases h.2)]
      exact .stop_error hr hb he (Nat.succ_le_succ (Nat.zero_le _))

theorem till_satisfy (v : Bool) (f : I → Bool) (m : Mode) (x y : List I) (hx : ∀ a ∈ x, f a = false)
    (w : σ) : RepsTill any (Comb.lookAhead (satisfy v f)) ⟨m, x ++ y⟩ w x ⟨m, y⟩ w := by
  induction x with
  | nil => exact .nil
  | cons c x ih =>
    refine .cons (r := .error (c :: (x ++ y)) (Err.unexpected v)) (w1 := w) ?_ nofun
      ((C11_any m w).2 c (x ++ y)) (ih fun a ha => hx a (by simp [ha]))
    rw [List.cons_append]
    unfold Comb.lookAhead
    rw [M.bind_ok ((C11_satisfy v f m w).2.2 c (x ++ y) (hx c (by simp)))]
    rfl

/-- `take_till(f)` is `many_till(any, look_ahead(satisfy(f)))`. -/
theorem C93_take_till (v : Bool) (f : I → Bool) :
    takeTill (σ := σ) f = Comb.manyTill (Collect.vec I) any (Comb.lookAhead (satisfy v f)) := by
  funext i w
  obtain ⟨m, b⟩ := i
  obtain ⟨x, y, rfl, h⟩ := MaxPrefix.exists (fun c => !f c) b
  have hx : ∀ a ∈ x, f a = false := fun a ha => by simpa using h.1 a ha
  have hr := till_satisfy v f m x y hx w
  cases y with
  | nil =>
    rw [C15_take_till_none f m (x ++ []) (by simpa using hx) w]
    exact ((C33_many_till_incomplete _ _ _ _ _ _).mpr
      ⟨x, _, w, .incomplete 1, w, hr, rfl, nofun, rfl⟩).symm
  | cons c y =>
    have hc : f c = true := by simpa using h.2 c y rfl
    rw [C15_take_till f m x c y hx hc w]
    refine ((C33_many_till_ok _ _ _ _ _ _ _).mpr ⟨⟨m, c :: y⟩, w, c, hr, ?_⟩).symm
    unfold Comb.lookAhead
    rw [M.bind_ok ((C11_satisfy v f m w).2.1 c y hc)]
    rfl

theorem reps_any (m : Mode) (x y : List I) (w : σ) : Reps any ⟨m, x ++ y⟩ w x ⟨m, y⟩ w := by
  induction x with
  | nil => exact .nil
  | cons c x ih => exact .cons ((C11_any m w).2 c (x ++ y)) ih

/-- `count(n, any)` matches what `take(n)` matches. If the input is too short, `count` asks for one item
and `take` for all that are missing. -/
theorem C93_take (n : Nat) (m : Mode) (b : List I) (w : σ) :
    (n ≤ b.length → Comb.count n (Collect.vec I) any ⟨m, b⟩ w = take n ⟨m, b⟩ w) ∧
    (b.length < n → Comb.count n (Collect.vec I) any ⟨m, b⟩ w = .ok (.incomplete 1, w) ∧
      take n ⟨m, b⟩ w = .ok (.incomplete (n - b.length), w)) := by
  constructor
  · intro h
    have hb := List.take_append_drop n b
    have hl : (b.take n).length = n := by simp [h]
    have h1 := C12_take_ok m (b.take n) (b.drop n) w
    have h2 := reps_any m (b.take n) (b.drop n) w
    rw [hl, hb] at h1
    rw [hb] at h2
    rw [h1]
    exact (C25_count_ok _ _ _ _ _ _ _).mpr ⟨hl, h2⟩
  · intro h
    have h1 := C12_take_short m b (n - b.length) (by omega) w
    have h2 := reps_any m b [] w
    rw [List.append_nil] at h2
    rw [show b.length + (n - b.length) = n by omega] at h1
    exact ⟨(C25_count_fails n any _ _ w w w b h2 h).2 1 rfl, h1⟩

/-- `many(any)` is `take_remainder` at the end of the input, and waits for ever in front of it. -/
theorem C93_take_remainder (b : List I) (w : σ) :
    Comb.many (Collect.vec I) any ⟨.endOfInput, b⟩ w = takeRemainder ⟨.endOfInput, b⟩ w ∧
    Comb.many (Collect.vec I) any ⟨.default, b⟩ w = .ok (.incomplete 1, w) := by
  have h := fun m => reps_any m b [] w
  simp only [List.append_nil] at h
  constructor
  · rw [C18_take_remainder]
    exact (C23_many_ok _ _ _ _ _ _).mpr ⟨w, h _, .inr ⟨rfl, 1, rfl⟩⟩
  · exact (C23_many_incomplete _ _ _ _ _).mpr ⟨b, _, w, h _, rfl, rfl⟩

example : Comb.many (Collect.vec Char) (satisfy true (· ≠ ' ')) ⟨.endOfInput, ['a', 'b', ' ', 'c']⟩ () =
    .ok (.data ⟨.endOfInput, [' ', 'c']⟩ ['a', 'b'], ()) := by
  rw [← C93_take_while]; rfl

example : Comb.many1 (Collect.vec Char) (satisfy true (· ≠ ' ')) ⟨.default, [' ', 'c']⟩ () =
    .ok (.error [' ', 'c'] .unexpected, ()) := by
  rw [← C93_take_while1]; rfl

example : Comb.manyTill (Collect.vec Char) any (Comb.lookAhead (satisfy true (· = ';')))
    ⟨.default, ['a', 'b', ';', 'c']⟩ () = .ok (.data ⟨.default, [';', 'c']⟩ ['a', 'b'], ()) := by
  rw [← C93_take_till]; rfl

example : Comb.count 3 (Collect.vec Char) any ⟨.default, ['a']⟩ () = .ok (.incomplete 1, ()) ∧
    take 3 ⟨.default, ['a']⟩ () = .ok (.incomplete 2, ()) :=
  (C93_take 3 .default ['a'] ()).2 (by decide)

/-! ### `string` and a `token` for each of its items -/

/-- `token(t)` for one item of the string after the other. -/
def spelled [DecidableEq I] (v : Bool) : List I → Parser σ I (List I) (Error I)
  | [] => Parser.ret []
  | t :: ts => Parser.bind id (token v t) fun c => Parser.map (spelled v ts) (c :: ·)

theorem spelled_cons [DecidableEq I] (v : Bool) (t : I) (ts r : List I) (m : Mode) (w : σ) :
    spelled v (t :: ts) ⟨m, t :: r⟩ w =
      Parser.map (spelled v ts) (t :: ·) ⟨m, r⟩ w := by
  conv => lhs; unfold spelled
  unfold Parser.bind
  rw [M.bind_ok ((C11_token v t m w).2.1 r), ParseResult.bind_data]

/-- Tokens one by one match what `string` matches. -/
theorem C93_string [DecidableEq I] (v v' : Bool) (s b : List I) (m : Mode) (w w' : σ) (i : Input I)
    (t : List I) :
    spelled v s ⟨m, b⟩ w = .ok (.data i t, w') ↔ string v' s ⟨m, b⟩ w = .ok (.data i t, w') := by
  rw [C17_string_iff]
  induction s generalizing b t with
  | nil =>
    obtain ⟨mi, bi⟩ := i
    show Res.ok (ParseResult.data ⟨m, b⟩ [], w) = _ ↔ _
    simp only [Res.ok.injEq, Prod.mk.injEq, ParseResult.data.injEq, Input.mk.injEq, List.nil_append]
    constructor
    · rintro ⟨⟨⟨rfl, rfl⟩, rfl⟩, rfl⟩; exact ⟨rfl, rfl, rfl, rfl⟩
    · rintro ⟨rfl, rfl, rfl, rfl⟩; exact ⟨⟨⟨rfl, rfl⟩, rfl⟩, rfl⟩
  | cons a s ih =>
    cases b with
    | nil =>
      constructor
      · intro h; exact absurd h nofun
      · rintro ⟨_, _, _, h⟩; cases h
    | cons c b =>
      by_cases h : c = a
      · subst h
        rw [spelled_cons, map_apply]
        constructor
        · intro h
          cases hs : spelled v s ⟨m, b⟩ w with
          | ok r =>
            obtain ⟨r, w1⟩ := r
            rw [hs] at h
            cases r with
            | data i1 t1 =>
              cases h
              obtain ⟨h1, h2, h3, h4⟩ := (ih _ _).mp hs
              exact ⟨h1, by rw [h2], h3, by rw [h4]; rfl⟩
            | error b1 e1 => cases h
            | incomplete n1 => cases h
          | panic => rw [hs] at h; cases h
          | ub => rw [hs] at h; cases h
          | div => rw [hs] at h; cases h
        · rintro ⟨h1, h2, h3, h4⟩
          rw [(ih b s).mpr ⟨h1, rfl, h3, by simpa using h4⟩, h2]
          rfl
      · constructor
        · intro hs
          unfold spelled Parser.bind at hs
          rw [M.bind_ok ((C11_token v a m w).2.2 c b h)] at hs
          cases hs
        · rintro ⟨_, _, _, h4⟩
          cases h4
          exact absurd rfl h

/-- Where they differ: tokens one by one ask for one item at a time, and fail at the first item which is
different, whatever is missing after it. -/
theorem C93_string_fails [DecidableEq I] (v : Bool) (x s r : List I) (a c : I) (m : Mode) (w : σ) :
    spelled v (x ++ a :: s) ⟨m, x⟩ w = .ok (.incomplete 1, w) ∧
    (c ≠ a → spelled v (x ++ a :: s) ⟨m, x ++ c :: r⟩ w =
      .ok (.error (c :: r) (if v then .expected a else .generic), w)) := by
  induction x with
  | nil =>
    refine ⟨rfl, fun h => ?_⟩
    show spelled v (a :: s) ⟨m, c :: r⟩ w = _
    unfold spelled Parser.bind
    rw [M.bind_ok ((C11_token v a m w).2.2 c r h)]
    rfl
  | cons t x ih =>
    constructor
    · rw [List.cons_append, spelled_cons, map_apply, ih.1]; rfl
    · intro h
      rw [List.cons_append, List.cons_append, spelled_cons, map_apply, ih.2 h]; rfl

/-- `string` compares when all items are there, and asks for them until then, even if the first item is
another one. -/
theorem C93_string_waits [DecidableEq I] (v : Bool) (a c : I) (s r : List I) (h : c ≠ a)
    (hr : r.length < s.length) (m : Mode) (w : σ) :
    string v (a :: s) ⟨m, c :: r⟩ w = .ok (.incomplete (s.length - r.length), w) ∧
    spelled v (a :: s) ⟨m, c :: r⟩ w = .ok (.error (c :: r) (if v then .expected a else .generic), w) := by
  refine ⟨?_, (C93_string_fails v [] s r a c m w).2 h⟩
  rw [C17_string_short v (a :: s) (c :: r) m (by simpa using hr) w]
  simp

example : string false ['G', 'E', 'T'] ⟨.default, ['P', 'U']⟩ () = .ok (.incomplete 1, ()) :=
  (C93_string_waits false 'G' 'P' ['E', 'T'] ['U'] (by decide) (by decide) .default ()).1

example (w : Unit) : spelled true ['G', 'E', 'T'] ⟨.default, ['G', 'E', 'T', ' ']⟩ w =
    .ok (.data ⟨.default, [' ']⟩ ['G', 'E', 'T'], w) :=
  (C93_string true true _ _ _ _ _ _ _).mpr (C17_string_match true ['G', 'E', 'T'] [' '] .default w)

/-! ### The programs of benches/combinators.rs

`data.into_stream().parse(p)` for `p` one of `count(n, any)` with `n` the length of `data`,
`many(any)` and `many1(any)`. -/

/-- All of them return `data` and leave the stream empty. -/
theorem C93_benches (chk : Bool) (d : List I) (hd : d ≠ []) (hl : d.length ≤ usizeMax) (w : σ)
    (p : Parser σ I (List I) (Error I))
    (hp : p = Comb.count d.length (Collect.vec I) any ∨ p = Comb.many (Collect.vec I) any ∨
      p = Comb.many1 (Collect.vec I) any) :
    ∃ s, (SliceStream.new d).parse chk p w = .ok ((.ok d, s), w) ∧ unread s = [] := by
  have hv : ValidSlice (SliceStream.new d) := ⟨Nat.zero_le _, hl⟩
  have hu : unread (SliceStream.new d) = d := rfl
  have h := reps_any .endOfInput d [] w
  rw [List.append_nil] at h
  have hb : Built everything p ∧ p ⟨.endOfInput, d⟩ w = .ok (.data ⟨.endOfInput, []⟩ d, w) := by
    rcases hp with rfl | rfl | rfl
    · exact ⟨.count _ _ .any, (C25_count_ok _ _ _ _ _ _ _).mpr ⟨rfl, h⟩⟩
    · exact ⟨.many _ .any, (C23_many_ok _ _ _ _ _ _).mpr ⟨w, h, .inr ⟨rfl, 1, rfl⟩⟩⟩
    · refine ⟨.many1 _ .any, (C24_many1 _ _ _ _ (fun h => by cases h)).mpr ?_⟩
      exact .stop_last h nofun rfl (List.length_pos_iff.mpr hd) rfl
  obtain ⟨s, h1, -, -, h2⟩ := C42_data chk p hb.1 _ hv (by rw [hu]; exact hd) w w _ d (by rw [hu]; exact hb.2)
  exact ⟨s, h1, h2⟩

/-- The programs, with `n` for 1024 and 10024. -/
theorem bench_data (chk : Bool) (n : Nat) (hn : n ≠ 0) (hl : n ≤ usizeMax) (p : Parser Unit UInt8 (List UInt8) (Error UInt8))
    (hp : p = Comb.count n (Collect.vec UInt8) any ∨ p = Comb.many (Collect.vec UInt8) any ∨
      p = Comb.many1 (Collect.vec UInt8) any) :
    ∃ s, (SliceStream.new (List.replicate n 97)).parse chk p () =
      .ok ((.ok (List.replicate n 97), s), ()) ∧ unread s = [] :=
  C93_benches chk _ (fun h => hn (by simpa using congrArg List.length h))
    (by rw [List.length_replicate]; exact hl) () p (by rw [List.length_replicate]; exact hp)

/-- `count_vec_1k`, benches/combinators.rs:13-24. -/
example : ∃ s, (SliceStream.new (List.replicate 1024 97)).parse true
    (Comb.count 1024 (Collect.vec UInt8) any) () = .ok ((.ok (List.replicate 1024 97), s), ()) ∧
    unread s = [] :=
  bench_data true 1024 (by decide) (by decide) _ (.inl rfl)

/-- `many1_vec_10k`, benches/combinators.rs:76-87. -/
example : ∃ s, (SliceStream.new (List.replicate 10024 97)).parse false
    (Comb.many1 (Collect.vec UInt8) any) () = .ok ((.ok (List.replicate 10024 97), s), ()) ∧
    unread s = [] :=
  bench_data false 10024 (by decide) (by decide) _ (.inr (.inr rfl))

end Chomp.Props
