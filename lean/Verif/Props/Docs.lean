import Verif.Lemmas.Docs
import Verif.Props.Source
import Verif.Props.Retry

/-
C82: the parsers in the documentation of the crate.
-/

namespace Chomp.Props

open Spec Spec.Docs Chomp.Docs
open Http (bind_data andThen_data ret_data token_data takeWhile1_data)

/-! ### C82 the documentation -/

/-- The example of the front page: a first name without spaces, a space, and a last name up to the end of
the line. At the end of the slice, the last name is taken to be over only if the input is. -/
theorem C82_name (v : Bool) (m : Mode) (b rest : List UInt8) (x : Name) (w w' : σ) :
    name v ⟨m, b⟩ w = .ok (.data ⟨m, rest⟩ x, w') ↔
      w' = w ∧ b = x.first ++ byte ' ' :: x.last ++ rest ∧ x.first ≠ [] ∧ byte ' ' ∉ x.first ∧
        x.last ≠ [] ∧ byte '\n' ∉ x.last ∧
        match rest with
        | [] => m = .endOfInput
        | c :: _ => c = byte '\n' := by
  obtain ⟨first, last⟩ := x
  have hs : ∀ l : List UInt8, (∀ c ∈ l, (c != 32) = true) ↔ byte ' ' ∉ l := by
    intro l
    constructor
    · intro h hm; exact absurd (h _ hm) (by decide)
    · intro h c hc
      rw [bne_iff_ne]
      rintro rfl
      exact h hc
  have hn : ∀ l : List UInt8, (∀ c ∈ l, (c != 10) = true) ↔ byte '\n' ∉ l := by
    intro l
    constructor
    · intro h hm; exact absurd (h _ hm) (by decide)
    · intro h c hc
      rw [bne_iff_ne]
      rintro rfl
      exact h hc
  unfold name
  rw [bind_data]
  constructor
  · rintro ⟨⟨m1, b1⟩, t, w1, h1, h2⟩
    obtain ⟨rfl, hm1, hb, hne, hp, _⟩ := takeWhile1_data.mp h1
    dsimp only at hm1 hb hp
    subst hm1 hb
    obtain ⟨⟨m2, b2⟩, c, w2, h2, h3⟩ := andThen_data.mp h2
    obtain ⟨rfl, rfl, hm2, hb2⟩ := token_data.mp h2
    dsimp only at hm2 hb2
    subst hm2 hb2
    obtain ⟨⟨m3, b3⟩, l, w3, h3, h4⟩ := bind_data.mp h3
    obtain ⟨rfl, hm3, hb3, hne3, hp3, he⟩ := takeWhile1_data.mp h3
    dsimp only at hm3 hb3 hp3 he
    subst hm3 hb3
    obtain ⟨h5, h6, rfl⟩ := ret_data.mp h4
    cases h5
    cases h6
    refine ⟨rfl, by simp [byte], hne, (hs _).mp hp.1, hne3, (hn _).mp hp3.1, ?_⟩
    cases rest with
    | nil =>
      dsimp only
      cases m3 with
      | default => exact absurd rfl (he rfl)
      | endOfInput => rfl
    | cons c r =>
      have := hp3.2 c r rfl
      show c = 10
      simpa using this
  · rintro ⟨rfl, rfl, h1, h2, h3, h4, h5⟩
    have e : first ++ byte ' ' :: last ++ rest = first ++ (32 :: (last ++ rest)) := by simp [byte]
    refine ⟨⟨m, 32 :: (last ++ rest)⟩, first, w', takeWhile1_data.mpr
      ⟨rfl, rfl, e, h1, ⟨(hs _).mpr h2, ?_⟩, by simp⟩, ?_⟩
    · intro c r e; cases e; rfl
    · refine andThen_data.mpr ⟨⟨m, last ++ rest⟩, 32, w', token_data.mpr ⟨rfl, rfl, rfl, rfl⟩, ?_⟩
      refine bind_data.mpr ⟨⟨m, rest⟩, last, w', takeWhile1_data.mpr
        ⟨rfl, rfl, rfl, h3, ⟨(hn _).mpr h4, ?_⟩, ?_⟩, ret_data.mpr ⟨rfl, rfl, rfl⟩⟩
      · intro c r e
        have e : rest = c :: r := e
        subst e
        dsimp only at h5
        rw [h5]; rfl
      · intro hd e
        have e : rest = [] := e
        subst e
        rw [hd] at h5
        cases h5

/-- Two digits and a text. The sum never overflows. -/
theorem C82_missiles (chk v : Bool) (m : Mode) (b rest : List UInt8) (x y z : UInt8) (w w' : σ) :
    f chk v ⟨m, b⟩ w = .ok (.data ⟨m, rest⟩ (x, y, z), w') ↔
      w' = w ∧ x ≤ 9 ∧ y ≤ 9 ∧ z.toNat = x.toNat + y.toNat ∧
        b = (x + byte '0') :: (y + byte '0') :: bytes "missiles" ++ rest := by
  unfold f
  rw [bind_data]
  constructor
  · rintro ⟨⟨m1, b1⟩, x1, w1, h1, h⟩
    obtain ⟨rfl, hm, hx, rfl⟩ := digit_data.mp h1
    dsimp only at hm h
    subst hm
    obtain ⟨⟨m2, b2⟩, y1, w2, h2, k0⟩ := bind_data.mp h
    obtain ⟨rfl, hm, hy, hb⟩ := digit_data.mp h2
    dsimp only at hm hb k0
    subst hm hb
    obtain ⟨⟨m3, b3⟩, t, w3, h3, k1⟩ := andThen_data.mp k0
    obtain ⟨rfl, _, hm, hb⟩ := (C17_string_iff _ _ _ _ _ _ _ _).mp h3
    dsimp only at hm hb k1
    subst hm hb
    rw [(add_ok chk x1 y1 hx hy).1] at k1
    cases k1
    exact ⟨rfl, hx, hy, (add_ok (σ := Unit) chk x y hx hy).2, rfl⟩
  · rintro ⟨rfl, hx, hy, hz, rfl⟩
    refine ⟨⟨m, _⟩, x, w', digit_data.mpr ⟨rfl, rfl, hx, rfl⟩, ?_⟩
    refine bind_data.mpr ⟨⟨m, _⟩, y, w', digit_data.mpr ⟨rfl, rfl, hy, rfl⟩, ?_⟩
    refine andThen_data.mpr ⟨⟨m, rest⟩, _, w', (C17_string_iff _ _ _ _ _ _ _ _).mpr
      ⟨rfl, rfl, rfl, rfl⟩, ?_⟩
    obtain ⟨h1, h2⟩ := add_ok (σ := σ) chk x y hx hy
    rw [h1]
    have : z = x + y := UInt8.toNat_inj.mp (by omega)
    rw [this]
    rfl

/-- The address: four numbers. With overflow checks each is at most 255, and without only the remainder
is kept. -/
theorem C82_ip (chk v : Bool) (m : Mode) (t rest : List UInt8) (a b c d : Int) (w w' : σ) :
    parseIp chk v ⟨m, t⟩ w = .ok (.data ⟨m, rest⟩ (a, b, c, d), w') ↔
      w' = w ∧ ∃ ta tb tc td, Octet chk ta a ∧ Octet chk tb b ∧ Octet chk tc c ∧ Octet chk td d ∧
        t = bytes "ip:" ++ ta ++ bytes "." ++ tb ++ bytes "." ++ tc ++ bytes "." ++ td ++ bytes ";" ++
          rest := by
  unfold parseIp
  rw [andThen_data]
  constructor
  · rintro ⟨⟨m1, b1⟩, s, w1, h1, h⟩
    obtain ⟨rfl, _, hm, rfl⟩ := (C17_string_iff _ _ _ _ _ _ _ _).mp h1
    dsimp only at hm h
    subst hm
    obtain ⟨⟨m2, b2⟩, a1, w2, h2, k0⟩ := bind_data.mp h
    obtain ⟨rfl, hm, ta, hb, ha⟩ := part_data.mp h2
    dsimp only at hm hb k0
    subst hm hb
    obtain ⟨⟨m3, b3⟩, a2, w3, h3, k1⟩ := bind_data.mp k0
    obtain ⟨rfl, hm, tb, hb, hb'⟩ := part_data.mp h3
    dsimp only at hm hb k1
    subst hm hb
    obtain ⟨⟨m4, b4⟩, a3, w4, h4, k2⟩ := bind_data.mp k1
    obtain ⟨rfl, hm, tc, hb, hc⟩ := part_data.mp h4
    dsimp only at hm hb k2
    subst hm hb
    obtain ⟨⟨m5, b5⟩, a4, w5, h5, k3⟩ := bind_data.mp k2
    obtain ⟨rfl, hm, td, hb, _, hd⟩ := decimal_data.mp h5
    dsimp only at hm hb k3
    subst hm hb
    obtain ⟨⟨m6, b6⟩, x, w6, h6, k4⟩ := andThen_data.mp k3
    obtain ⟨_, rfl, hm, hb⟩ := token_data.mp h6
    dsimp only at hm hb k4
    subst hm hb
    obtain ⟨h7, h8, rfl⟩ := ret_data.mp k4
    cases h7
    cases h8
    exact ⟨rfl, ta, tb, tc, td, ha, hb', hc, hd, by simp [bytes, byte]⟩
  · rintro ⟨rfl, ta, tb, tc, td, ha, hb, hc, hd, rfl⟩
    refine ⟨⟨m, ta ++ 46 :: (tb ++ 46 :: (tc ++ 46 :: (td ++ 59 :: rest)))⟩, _, w',
      (C17_string_iff _ _ _ _ _ _ _ _).mpr ⟨rfl, rfl, rfl, by simp [bytes, byte]⟩, ?_⟩
    refine bind_data.mpr ⟨⟨m, _⟩, a, w', part_data.mpr ⟨rfl, rfl, ta, rfl, ha⟩, ?_⟩
    refine bind_data.mpr ⟨⟨m, _⟩, b, w', part_data.mpr ⟨rfl, rfl, tb, rfl, hb⟩, ?_⟩
    refine bind_data.mpr ⟨⟨m, _⟩, c, w', part_data.mpr ⟨rfl, rfl, tc, rfl, hc⟩, ?_⟩
    refine bind_data.mpr ⟨⟨m, _⟩, d, w', decimal_data.mpr ⟨rfl, rfl, td, rfl, ends_semi, hd⟩, ?_⟩
    exact andThen_data.mpr ⟨⟨m, rest⟩, 59, w', token_data.mpr ⟨rfl, rfl, rfl, rfl⟩,
      ret_data.mpr ⟨rfl, rfl, rfl⟩⟩

/-- It panics exactly if overflow checks are on and one of the numbers, after well-formed ones, is too
large. -/
theorem C82_ip_panics (chk v : Bool) (m : Mode) (t : List UInt8) (w : σ) :
    parseIp chk v ⟨m, t⟩ w = .panic ↔
      chk = true ∧ ∃ (before : List (List UInt8)) (ds rest : List UInt8),
        before.length ≤ 3 ∧ (∀ x ∈ before, Digits x ∧ value x ≤ 255) ∧
        t = bytes "ip:" ++ before.flatMap (· ++ bytes ".") ++ ds ++ rest ∧ DigitRun m ds rest ∧
        255 < value ds := by
  have octet : ∀ {ds x}, Octet true ds x → Digits ds ∧ value ds ≤ 255 := fun h => ⟨h.1, h.2.1⟩
  unfold parseIp
  rw [andThen_panic]
  constructor
  · rintro (h | ⟨⟨m1, b1⟩, s, w1, h1, h⟩)
    · rcases Parsers.string_cases [105, 112, 58] t with hl | ⟨r, rfl⟩ |
        ⟨x, a, c, s', r, e, rfl, hne, hl⟩
      · rw [Parsers.string_short w hl] at h; cases h
      · rw [Parsers.string_match w] at h; cases h
      · rw [e, Parsers.string_mismatch w hne hl] at h; cases h
    obtain ⟨rfl, _, hm, rfl⟩ := (C17_string_iff _ _ _ _ _ _ _ _).mp h1
    dsimp only at hm h
    subst hm
    rcases bind_panic.mp h with h | ⟨⟨m2, b2⟩, a1, w2, h2, k0⟩
    · obtain ⟨hc, ds, rest, rfl, hr, hv⟩ := part_panic.mp h
      exact ⟨hc, [], ds, rest, by simp, by simp, by simp [bytes, byte], hr, hv⟩
    obtain ⟨rfl, hm, ta, hb, ha⟩ := part_data.mp h2
    dsimp only at hm hb k0
    subst hm hb
    rcases bind_panic.mp k0 with h | ⟨⟨m3, b3⟩, a2, w3, h3, k1⟩
    · obtain ⟨hc, ds, rest, rfl, hr, hv⟩ := part_panic.mp h
      subst hc
      exact ⟨rfl, [ta], ds, rest, by simp, by simpa using octet ha, by simp [bytes, byte], hr, hv⟩
    obtain ⟨rfl, hm, tb, hb, hb'⟩ := part_data.mp h3
    dsimp only at hm hb k1
    subst hm hb
    rcases bind_panic.mp k1 with h | ⟨⟨m4, b4⟩, a3, w4, h4, k2⟩
    · obtain ⟨hc, ds, rest, rfl, hr, hv⟩ := part_panic.mp h
      subst hc
      exact ⟨rfl, [ta, tb], ds, rest, by simp, by simpa using ⟨octet ha, octet hb'⟩,
        by simp [bytes, byte], hr, hv⟩
    obtain ⟨rfl, hm, tc, hb, hc'⟩ := part_data.mp h4
    dsimp only at hm hb k2
    subst hm hb
    rcases bind_panic.mp k2 with h | ⟨⟨m5, b5⟩, a4, w5, h5, k3⟩
    · obtain ⟨hc, ds, rest, rfl, hr, hv⟩ := decimal_panic.mp h
      subst hc
      exact ⟨rfl, [ta, tb, tc], ds, rest, by simp, by simpa using ⟨octet ha, octet hb', octet hc'⟩,
        by simp [bytes, byte], hr, hv⟩
    rcases andThen_panic.mp k3 with h | ⟨i, x, w6, h6, k4⟩
    · exact absurd h token_panic
    · cases k4
  · rintro ⟨rfl, before, ds, rest, hlen, hall, rfl, hr, hv⟩
    refine .inr ⟨⟨m, before.flatMap (· ++ bytes ".") ++ ds ++ rest⟩, _, w,
      (C17_string_iff _ _ _ _ _ _ _ _).mpr ⟨rfl, rfl, rfl, by simp [bytes, byte]⟩, ?_⟩
    have octet : ∀ x ∈ before, Octet true x (value x) := fun x hx =>
      ⟨(hall x hx).1, (hall x hx).2, rfl⟩
    have e : bytes "." = [46] := rfl
    rw [e]
    match before, hlen, octet with
    | [], _, _ => exact bind_panic.mpr (.inl (part_panic.mpr ⟨rfl, ds, rest, by simp, hr, hv⟩))
    | [ta], _, ho =>
      refine bind_panic.mpr (.inr ⟨⟨m, ds ++ rest⟩, _, w, part_data.mpr
        ⟨rfl, rfl, ta, by simp, ho ta (by simp)⟩, ?_⟩)
      exact bind_panic.mpr (.inl (part_panic.mpr ⟨rfl, ds, rest, by simp, hr, hv⟩))
    | [ta, tb], _, ho =>
      refine bind_panic.mpr (.inr ⟨⟨m, tb ++ 46 :: (ds ++ rest)⟩, _, w, part_data.mpr
        ⟨rfl, rfl, ta, by simp, ho ta (by simp)⟩, ?_⟩)
      refine bind_panic.mpr (.inr ⟨⟨m, ds ++ rest⟩, _, w, part_data.mpr
        ⟨rfl, rfl, tb, by simp, ho tb (by simp)⟩, ?_⟩)
      exact bind_panic.mpr (.inl (part_panic.mpr ⟨rfl, ds, rest, by simp, hr, hv⟩))
    | [ta, tb, tc], _, ho =>
      refine bind_panic.mpr (.inr ⟨⟨m, tb ++ 46 :: (tc ++ 46 :: (ds ++ rest))⟩, _, w, part_data.mpr
        ⟨rfl, rfl, ta, by simp, ho ta (by simp)⟩, ?_⟩)
      refine bind_panic.mpr (.inr ⟨⟨m, tc ++ 46 :: (ds ++ rest)⟩, _, w, part_data.mpr
        ⟨rfl, rfl, tb, by simp, ho tb (by simp)⟩, ?_⟩)
      refine bind_panic.mpr (.inr ⟨⟨m, ds ++ rest⟩, _, w, part_data.mpr
        ⟨rfl, rfl, tc, by simp, ho tc (by simp)⟩, ?_⟩)
      exact bind_panic.mpr (.inl (decimal_panic.mpr ⟨rfl, ds, rest, by simp, hr, hv⟩))
    | _ :: _ :: _ :: _ :: _, h, _ => simp at h

/-- The level: on the last slice, the one whose text is at its beginning. -/
theorem C82_log (v : Bool) (b rest : List UInt8) (l : Log) (w w' : σ) :
    logSeverity v ⟨.endOfInput, b⟩ w = .ok (.data ⟨.endOfInput, rest⟩ l, w') ↔
      w' = w ∧ b = text l ++ rest := by
  exact log_data (.inl rfl)

/-- On other slices five bytes have to be there, also for the shorter texts: the first alternative is not
given up while it is incomplete. -/
theorem C82_log_waits (v : Bool) (b : List UInt8) (w : σ) :
    (5 ≤ b.length → ∀ rest l w', logSeverity v ⟨.default, b⟩ w = .ok (.data ⟨.default, rest⟩ l, w') ↔
      w' = w ∧ b = text l ++ rest) ∧
    (b.length < 5 → logSeverity v ⟨.default, b⟩ w = .ok (.incomplete (5 - b.length), w)) := by
  refine ⟨fun h rest l w' => log_data (.inr h), fun h => ?_⟩
  have : level v [69, 82, 82, 79, 82] .error ⟨.default, b⟩ w = .ok (.incomplete (5 - b.length), w) := by
    unfold level Parser.map
    rw [M.bind_ok (Parsers.string_short w h)]
    rfl
  unfold logSeverity
  rw [C20_or_incomplete _ _ _ _ _ _ _ this, if_neg (by simp)]

/-- All of them give the same answers however the input is cut (C51 and C43 apply to them). -/
theorem C82_streaming (chk v : Bool) :
    Built streaming (name (σ := σ) v) ∧ Built streaming (f (σ := σ) chk v) ∧
    Built streaming (parseIp (σ := σ) chk v) ∧ Built streaming (logSeverity (σ := σ) v) := by
  have digit : Built streaming (digit (σ := σ) chk v) := .mapM _ (by simp [streaming]) (.satisfy _ _)
  have part : Built streaming (skip (σ := σ) (Ascii.decimal v (u8 chk).num) (Parsers.token v 46)) :=
    .bind (.decimal _ _ (by simp [streaming])) fun _ => .map _ (.token _ _)
  have level : ∀ s l, Built streaming (level (σ := σ) v s l) := fun s l => .map _ (.string _ _)
  refine ⟨.bind (.takeWhile1 _ _) fun _ => .andThen (.token _ _) (.bind (.takeWhile1 _ _) fun _ => .ret _),
    .bind digit fun a => .bind digit fun b => .andThen (.string _ _) ?_,
    .andThen (.string _ _) (.bind part fun _ => .bind part fun _ => .bind part fun _ =>
      .bind (.decimal _ _ (by simp [streaming])) fun _ => .andThen (.token _ _) (.ret _)),
    .or (level _ _) (.or (level _ _) (.or (level _ _) (level _ _)))⟩
  exact .effect (g := addU8 chk a b) (k := fun c => Parser.ret (a, b, c)) (by simp [streaming])
    fun _ => .ret _

/-! ### The assertions of the documentation -/

/-- "Martin Wernstål\n"; the "å" is two bytes. -/
example : parseOnly (name true) (bytes "Martin Wernst" ++ [195, 165] ++ bytes "l\n") () =
    .ok (.ok ⟨bytes "Martin", bytes "Wernst" ++ [195, 165] ++ bytes "l"⟩, ()) :=
  (C10_parse_only_ok _ _ _ _ _).mpr ⟨⟨.endOfInput, bytes "\n"⟩, (C82_name _ _ _ _ _ _ _).mpr
    ⟨rfl, by decide, by decide, by decide, by decide, by decide, rfl⟩⟩

example : parseOnly (f true true) (bytes "33missiles") () = .ok (.ok (3, 3, 6), ()) :=
  (C10_parse_only_ok _ _ _ _ _).mpr ⟨⟨.endOfInput, []⟩, (C82_missiles _ _ _ _ _ _ _ _ _ _).mpr
    ⟨rfl, by decide, by decide, by decide, by decide⟩⟩

example : parseOnly (parseIp true true) (bytes "ip:192.168.0.1;") () = .ok (.ok (192, 168, 0, 1), ()) :=
  (C10_parse_only_ok _ _ _ _ _).mpr ⟨⟨.endOfInput, []⟩, (C82_ip _ _ _ _ _ _ _ _ _ _ _).mpr
    ⟨rfl, bytes "192", bytes "168", bytes "0", bytes "1", by decide, by decide, by decide, by decide,
      by decide⟩⟩

/-- The same parser on another address, in the two builds. -/
example : parseIp true true ⟨.endOfInput, bytes "ip:192.168.0.256;"⟩ () = .panic :=
  (C82_ip_panics _ _ _ _ _).mpr ⟨rfl, [bytes "192", bytes "168", bytes "0"], bytes "256", bytes ";",
    by decide, by decide, by decide, ⟨by decide, by decide, by decide⟩, by decide⟩

example : parseIp false true ⟨.endOfInput, bytes "ip:192.168.0.256;"⟩ () =
    .ok (.data ⟨.endOfInput, []⟩ (192, 168, 0, 0), ()) :=
  (C82_ip _ _ _ _ _ _ _ _ _ _ _).mpr
    ⟨rfl, bytes "192", bytes "168", bytes "0", bytes "256", by decide, by decide, by decide, by decide,
      by decide⟩

example : parseOnly (logSeverity true) (bytes "INFO") () = .ok (.ok .info, ()) :=
  (C10_parse_only_ok _ _ _ _ _).mpr ⟨⟨.endOfInput, []⟩, (C82_log _ _ _ _ _ _).mpr ⟨rfl, by decide⟩⟩

example : logSeverity true ⟨.default, bytes "INFO"⟩ () = .ok (.incomplete 1, ()) :=
  (C82_log_waits _ _ _).2 (by decide)

end Chomp.Props
