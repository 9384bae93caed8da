import Verif.Lemmas.Http
import Verif.Spec.Docs

namespace Chomp.Docs

open Spec Spec.Docs Props Ascii
open Http (bind_data andThen_data ret_data token_data takeWhile1_data)

theorem bind_panic {p : Parser σ I T E} {f : T → Parser σ I U E} {i : Input I} {w : σ} :
    Parser.bind id p f i w = .panic ↔
      p i w = .panic ∨ ∃ i1 t w1, p i w = .ok (.data i1 t, w1) ∧ f t i1 w1 = .panic := by
  unfold Parser.bind
  rw [M.bind_apply]
  match h : p i w with
  | .ok (.data i1 t, w1) =>
    rw [Res.bind_ok]
    dsimp only
    rw [ParseResult.bind_data]
    constructor
    · intro hf; exact .inr ⟨i1, t, w1, rfl, hf⟩
    · rintro (h1 | ⟨i2, t2, w2, h1, h2⟩)
      · cases h1
      · cases h1; exact h2
  | .ok (.error b e, w1) =>
    rw [Res.bind_ok]
    dsimp only
    rw [ParseResult.bind_error]
    constructor
    · intro hf; cases hf
    · rintro (h1 | ⟨i2, t2, w2, h1, h2⟩) <;> cases h1
  | .ok (.incomplete n, w1) =>
    rw [Res.bind_ok]
    dsimp only
    rw [ParseResult.bind_incomplete]
    constructor
    · intro hf; cases hf
    · rintro (h1 | ⟨i2, t2, w2, h1, h2⟩) <;> cases h1
  | .panic => simp
  | .ub => simp
  | .div => simp

theorem andThen_panic {p : Parser σ I T E} {q : Parser σ I U E} {i : Input I} {w : σ} :
    Parser.andThen id p q i w = .panic ↔
      p i w = .panic ∨ ∃ i1 t w1, p i w = .ok (.data i1 t, w1) ∧ q i1 w1 = .panic :=
  bind_panic (f := fun _ => q)

theorem map_data {p : Parser σ I T E} {f : T → U} {i i' : Input I} {u : U} {w w' : σ} :
    Parser.map p f i w = .ok (.data i' u, w') ↔ ∃ t, p i w = .ok (.data i' t, w') ∧ u = f t := by
  unfold Parser.map
  rw [M.bind_apply]
  match h : p i w with
  | .ok (.data i1 t, w1) =>
    rw [Res.bind_ok]
    constructor
    · intro h; cases h; exact ⟨t, rfl, rfl⟩
    · rintro ⟨t', h1, rfl⟩; cases h1; rfl
  | .ok (.error b e, w1) =>
    rw [Res.bind_ok]
    constructor
    · intro h; cases h
    · rintro ⟨t', h1, rfl⟩; cases h1
  | .ok (.incomplete n, w1) =>
    rw [Res.bind_ok]
    constructor
    · intro h; cases h
    · rintro ⟨t', h1, rfl⟩; cases h1
  | .panic => simp
  | .ub => simp
  | .div => simp

theorem map_panic {p : Parser σ I T E} {f : T → U} {i : Input I} {w : σ} :
    Parser.map p f i w = .panic ↔ p i w = .panic := by
  unfold Parser.map
  rw [M.bind_apply]
  match h : p i w with
  | .ok (.data i1 t, w1) => rw [Res.bind_ok]; constructor <;> intro h <;> cases h
  | .ok (.error b e, w1) => rw [Res.bind_ok]; constructor <;> intro h <;> cases h
  | .ok (.incomplete n, w1) => rw [Res.bind_ok]; constructor <;> intro h <;> cases h
  | .panic => simp
  | .ub => simp
  | .div => simp

/-! ### Numbers -/

theorem run_cases (m : Mode) (b : List UInt8) :
    (∃ ds rest, b = ds ++ rest ∧ DigitRun m ds rest) ∨
    (∃ c r, b = c :: r ∧ ¬ (byte '0' ≤ c ∧ c ≤ byte '9')) ∨
    (m = .default ∧ ∀ c ∈ b, byte '0' ≤ c ∧ c ≤ byte '9') ∨ (m = .endOfInput ∧ b = []) := by
  obtain ⟨x, y, rfl, h⟩ := MaxPrefix.exists isDigit b
  have hx : ∀ c ∈ x, byte '0' ≤ c ∧ c ≤ byte '9' := fun c hc => (isDigit_iff c).mp (h.1 c hc)
  cases y with
  | nil =>
    cases m with
    | default => exact .inr (.inr (.inl ⟨rfl, by simpa using hx⟩))
    | endOfInput =>
      by_cases e : x = []
      · exact .inr (.inr (.inr ⟨rfl, by simp [e]⟩))
      · exact .inl ⟨x, [], rfl, e, hx, rfl⟩
  | cons c r =>
    have hc : ¬ (byte '0' ≤ c ∧ c ≤ byte '9') := by
      rw [← isDigit_iff, h.2 c r rfl]; simp
    by_cases e : x = []
    · exact .inr (.inl ⟨c, r, by simp [e], hc⟩)
    · exact .inl ⟨x, c :: r, rfl, e, hx, hc⟩

theorem run_unique {m : Mode} {ds rest ds' rest' : List UInt8} (h : DigitRun m ds rest)
    (h' : DigitRun m ds' rest') (e : ds ++ rest = ds' ++ rest') : ds = ds' ∧ rest = rest' := by
  have h1 := (run_takeWhile h).1
  have h2 := (run_takeWhile h').1
  rw [e, h2] at h1
  subst h1
  exact ⟨rfl, List.append_cancel_left e⟩

theorem u8_max (chk : Bool) : (u8 chk).max = 255 := by cases chk <;> decide

theorem decimal_data {chk v : Bool} {m : Mode} {b : List UInt8} {i : Input UInt8} {x : Int}
    {w w' : σ} : decimal v (u8 chk).num ⟨m, b⟩ w = .ok (.data i x, w') ↔
      w' = w ∧ i.mode = m ∧ ∃ ds, b = ds ++ i.buf ∧ Ends m i.buf ∧ Octet chk ds x := by
  obtain ⟨mi, bi⟩ := i
  have key : ∀ ds rest, DigitRun m ds rest →
      (decimal v (u8 chk).num ⟨m, ds ++ rest⟩ w = .ok (.data ⟨mi, bi⟩ x, w') ↔
        w' = w ∧ mi = m ∧ bi = rest ∧ Octet chk ds x) := by
    intro ds rest h
    have hd : Digits ds := ⟨h.1, h.2.1⟩
    cases chk with
    | true =>
      by_cases hv : value ds ≤ 255
      · rw [C39_value v (u8 true) m ds rest w h (by rw [u8_max]; omega)]
        constructor
        · intro e; cases e; exact ⟨rfl, rfl, rfl, hd, hv, rfl⟩
        · rintro ⟨rfl, rfl, rfl, _, _, rfl⟩; rfl
      · rw [C39_checked v (u8 true) (by decide) rfl m ds rest w h (by rw [u8_max]; omega)]
        constructor
        · intro e; cases e
        · rintro ⟨_, _, _, _, h, _⟩; exact absurd h hv
    | false =>
      obtain ⟨y, hy, hw⟩ := C39_wrapping v (u8 false) (by decide) rfl m ds rest w h
      have : y = value ds % 256 := by
        obtain ⟨h1, h2, k, hk⟩ := hw
        have e1 : (u8 false).min = 0 := by decide
        rw [e1] at h1
        rw [u8_max] at h2
        have e : (2 : Int) ^ (u8 false).bits = 256 := by decide
        rw [e] at hk
        omega
      subst this
      rw [hy]
      constructor
      · intro e; cases e; exact ⟨rfl, rfl, rfl, hd, by rw [if_neg (by simp)]⟩
      · rintro ⟨rfl, rfl, rfl, _, h⟩
        rw [if_neg (by simp)] at h
        rw [h]
  rcases run_cases m b with ⟨ds, rest, rfl, h⟩ | ⟨c, r, rfl, hc⟩ | ⟨rfl, h⟩ | ⟨rfl, rfl⟩
  · rw [key ds rest h]
    constructor
    · rintro ⟨h1, h2, rfl, h3⟩; exact ⟨h1, h2, ds, rfl, h.2.2, h3⟩
    · rintro ⟨h1, h2, ds', e, he, ho⟩
      obtain ⟨rfl, rfl⟩ := run_unique h ⟨ho.1.1, ho.1.2, he⟩ e
      exact ⟨h1, h2, rfl, ho⟩
  · rw [C39_error v _ m c r w hc]
    constructor
    · intro e; cases e
    · rintro ⟨_, _, ds, e, _, ho⟩
      cases ds with
      | nil => exact absurd rfl ho.1.1
      | cons d ds => cases e; exact absurd (ho.1.2 c (by simp)) hc
  · rw [(C39_incomplete v _ b w h).1]
    constructor
    · intro e; cases e
    · rintro ⟨_, _, ds, rfl, he, ho⟩
      dsimp only at he
      cases bi with
      | nil => cases he
      | cons d r => exact absurd (h d (by simp)) he
  · rw [(C39_incomplete v _ [] w (by simp)).2]
    constructor
    · intro e; cases e
    · rintro ⟨_, _, ds, e, he, ho⟩
      cases ds with
      | nil => exact absurd rfl ho.1.1
      | cons d ds => cases e

theorem decimal_panic {chk v : Bool} {m : Mode} {b : List UInt8} {w : σ} :
    decimal v (u8 chk).num ⟨m, b⟩ w = .panic ↔
      chk = true ∧ ∃ ds rest, b = ds ++ rest ∧ DigitRun m ds rest ∧ 255 < value ds := by
  rcases run_cases m b with ⟨ds, rest, rfl, h⟩ | ⟨c, r, rfl, hc⟩ | ⟨rfl, h⟩ | ⟨rfl, rfl⟩
  · cases chk with
    | true =>
      by_cases hv : value ds ≤ 255
      · rw [C39_value v (u8 true) m ds rest w h (by rw [u8_max]; omega)]
        constructor
        · intro e; cases e
        · rintro ⟨_, ds', rest', e, h', hl⟩
          obtain ⟨rfl, rfl⟩ := run_unique h h' e
          omega
      · rw [C39_checked v (u8 true) (by decide) rfl m ds rest w h (by rw [u8_max]; omega)]
        exact ⟨fun _ => ⟨rfl, ds, rest, rfl, h, by omega⟩, fun _ => rfl⟩
    | false =>
      obtain ⟨y, hy, hw⟩ := C39_wrapping v (u8 false) (by decide) rfl m ds rest w h
      rw [hy]
      simp
  · rw [C39_error v _ m c r w hc]
    constructor
    · intro e; cases e
    · rintro ⟨_, ds, rest, e, h, _⟩
      cases ds with
      | nil => exact absurd rfl h.1
      | cons d ds => cases e; exact absurd (h.2.1 c (by simp)) hc
  · rw [(C39_incomplete v _ b w h).1]
    constructor
    · intro e; cases e
    · rintro ⟨_, ds, rest, rfl, hr, _⟩
      cases rest with
      | nil => cases hr.2.2
      | cons d r => exact absurd (h d (by simp)) hr.2.2
  · rw [(C39_incomplete v _ [] w (by simp)).2]
    constructor
    · intro e; cases e
    · rintro ⟨_, ds, rest, e, h, _⟩
      cases ds with
      | nil => exact absurd rfl h.1
      | cons d ds => cases e

theorem ends_dot {m : Mode} {r : List UInt8} : Ends m (46 :: r) := by
  show ¬ _; decide

theorem ends_semi {m : Mode} {r : List UInt8} : Ends m (59 :: r) := by
  show ¬ _; decide

/-- `decimal() <* token(b'.')` -/
theorem part_data {chk v : Bool} {m : Mode} {b : List UInt8} {i : Input UInt8} {x : Int} {w w' : σ} :
    skip (decimal v (u8 chk).num) (Parsers.token v 46) ⟨m, b⟩ w = .ok (.data i x, w') ↔
      w' = w ∧ i.mode = m ∧ ∃ ds, b = ds ++ 46 :: i.buf ∧ Octet chk ds x := by
  unfold skip
  rw [bind_data]
  constructor
  · rintro ⟨i1, t, w1, h1, h2⟩
    obtain ⟨rfl, rfl, ds, rfl, _, ho⟩ := decimal_data.mp h1
    obtain ⟨y, h3, rfl⟩ := map_data.mp h2
    obtain ⟨rfl, rfl, hm, e⟩ := token_data.mp h3
    exact ⟨rfl, hm, ds, by rw [e], ho⟩
  · rintro ⟨rfl, rfl, ds, rfl, ho⟩
    exact ⟨⟨i.mode, 46 :: i.buf⟩, x, w', decimal_data.mpr ⟨rfl, rfl, ds, rfl, ends_dot, ho⟩,
      map_data.mpr ⟨46, token_data.mpr ⟨rfl, rfl, rfl, rfl⟩, rfl⟩⟩

theorem token_panic [DecidableEq I] {v : Bool} {c : I} {i : Input I} {w : σ} :
    Parsers.token v c i w ≠ .panic := by
  rw [Parsers.token_eq]
  cases i.buf with
  | nil => simp
  | cons d r => dsimp only; split <;> simp

theorem part_panic {chk v : Bool} {m : Mode} {b : List UInt8} {w : σ} :
    skip (decimal v (u8 chk).num) (Parsers.token v 46) ⟨m, b⟩ w = .panic ↔
      chk = true ∧ ∃ ds rest, b = ds ++ rest ∧ DigitRun m ds rest ∧ 255 < value ds := by
  unfold skip
  rw [bind_panic, decimal_panic]
  constructor
  · rintro (h | ⟨i1, t, w1, h1, h2⟩)
    · exact h
    · exact absurd (map_panic.mp h2) token_panic
  · exact .inl

/-! ### Digits -/

theorem sub_add (c : UInt8) : c - 48 + 48 = c := by
  revert c; refine forall_byte (fun n => ?_); revert n; decide +kernel

theorem add_sub (c : UInt8) : c + 48 - 48 = c := by
  revert c; refine forall_byte (fun n => ?_); revert n; decide +kernel

theorem is_digit (c : UInt8) : (decide (48 ≤ c) && decide (c ≤ 57)) = true ↔ 48 ≤ c ∧ c - 48 ≤ 9 := by
  revert c; refine forall_byte (fun n => ?_); revert n; decide +kernel

theorem digit_byte (c : UInt8) (h : c ≤ 9) :
    (decide (48 ≤ c + 48) && decide (c + 48 ≤ 57)) = true ∧ ¬ c + 48 < 48 := by
  revert c; refine forall_byte (fun n => ?_); revert n; decide +kernel

theorem digit_data {chk v : Bool} {m : Mode} {b : List UInt8} {i : Input UInt8} {x : UInt8} {w w' : σ} :
    digit chk v ⟨m, b⟩ w = .ok (.data i x, w') ↔
      w' = w ∧ i.mode = m ∧ x ≤ 9 ∧ b = (x + 48) :: i.buf := by
  obtain ⟨mi, bi⟩ := i
  unfold digit Closures.map
  rw [M.bind_ok (Parsers.satisfy_eq _ _ _ _)]
  cases b with
  | nil => constructor <;> intro h <;> simp at h <;> cases h
  | cons c r =>
    dsimp only
    by_cases hc : (decide (48 ≤ c) && decide (c ≤ 57)) = true
    · rw [if_pos hc]
      have hc' := (is_digit c).mp hc
      have hs : (subU8 chk c 48 : M σ UInt8) = pure (c - 48) := by
        unfold subU8
        rw [if_neg]
        rintro ⟨_, h⟩
        exact absurd hc'.1 (by simpa using h)
      show (subU8 chk c 48 >>= fun u => pure (ParseResult.data ⟨m, r⟩ u)) w = _ ↔ _
      rw [hs]
      constructor
      · intro h; cases h; exact ⟨rfl, rfl, hc'.2, by rw [sub_add]⟩
      · rintro ⟨rfl, rfl, _, h⟩; cases h; rw [add_sub]; rfl
    · rw [if_neg hc]
      constructor
      · intro h; cases h
      · rintro ⟨_, _, h, e⟩
        cases e
        exact absurd (digit_byte x h).1 hc

theorem add_ok (chk : Bool) (a b : UInt8) (ha : a ≤ 9) (hb : b ≤ 9) :
    (addU8 chk a b : M σ UInt8) = pure (a + b) ∧ (a + b).toNat = a.toNat + b.toNat := by
  have ha : a.toNat ≤ 9 := UInt8.le_iff_toNat_le.mp ha
  have hb : b.toNat ≤ 9 := UInt8.le_iff_toNat_le.mp hb
  refine ⟨?_, ?_⟩
  · unfold addU8
    rw [if_neg]
    omega
  · rw [UInt8.toNat_add]
    omega

/-! ### Levels -/

theorem level_data {v : Bool} {s : List UInt8} {l x : Log} {m : Mode} {b : List UInt8} {i : Input UInt8}
    {w w' : σ} : level v s l ⟨m, b⟩ w = .ok (.data i x, w') ↔
      w' = w ∧ x = l ∧ i.mode = m ∧ b = s ++ i.buf := by
  unfold level
  rw [map_data]
  constructor
  · rintro ⟨t, h, rfl⟩
    obtain ⟨h1, _, h2, h3⟩ := (C17_string_iff _ _ _ _ _ _ _ _).mp h
    exact ⟨h1, rfl, h2, h3⟩
  · rintro ⟨rfl, rfl, h2, h3⟩
    exact ⟨s, (C17_string_iff _ _ _ _ _ _ _ _).mpr ⟨rfl, rfl, h2, h3⟩, rfl⟩

theorem or_level (v : Bool) (s : List UInt8) (l : Log) (q : Parser σ UInt8 Log (Error UInt8)) (m : Mode)
    (b : List UInt8) (w : σ) (h : m = .endOfInput ∨ s.length ≤ b.length) (hn : ¬ s <+: b) :
    Comb.or (level v s l) q ⟨m, b⟩ w = q ⟨m, b⟩ w := by
  rcases Parsers.string_cases s b with hl | ⟨r, rfl⟩ | ⟨x, t, c, s', r, rfl, rfl, hne, hl⟩
  · have : level v s l ⟨m, b⟩ w = .ok (.incomplete (s.length - b.length), w) := by
      unfold level Parser.map
      rw [M.bind_ok (Parsers.string_short w hl)]
      rfl
    rw [C20_or_incomplete _ _ _ _ _ _ _ this, if_pos]
    rcases h with h | h
    · exact h
    · omega
  · exact absurd (List.prefix_append s r) hn
  · have : ∃ b' e, level v (x ++ t :: s') l ⟨m, x ++ c :: r⟩ w = .ok (.error b' e, w) := by
      unfold level Parser.map
      rw [M.bind_ok (Parsers.string_mismatch w hne hl)]
      cases v <;> exact ⟨_, _, rfl⟩
    obtain ⟨b', e, this⟩ := this
    rw [C20_or_err _ _ _ _ _ _ _ this]

theorem log_data {v : Bool} {m : Mode} {b rest : List UInt8} {l : Log} {w w' : σ}
    (h : m = .endOfInput ∨ 5 ≤ b.length) :
    logSeverity v ⟨m, b⟩ w = .ok (.data ⟨m, rest⟩ l, w') ↔ w' = w ∧ b = text l ++ rest := by
  have ok : ∀ (l' : Log) (q : Parser σ UInt8 Log (Error UInt8)) (r : List UInt8),
      Comb.or (level v (text l') l') q ⟨m, text l' ++ r⟩ w = .ok (.data ⟨m, r⟩ l', w) := fun l' q r =>
    C20_or_ok _ _ _ _ _ _ _ (level_data.mpr ⟨rfl, rfl, rfl, rfl⟩)
  have same : ∀ (l' : Log) (r : List UInt8), (.ok (.data ⟨m, r⟩ l', w) : Res (ParseResult UInt8 Log (Error UInt8) × σ)) =
      .ok (.data ⟨m, rest⟩ l, w') ↔ w' = w ∧ text l' ++ r = text l ++ rest := by
    intro l' r
    constructor
    · intro h; cases h; exact ⟨rfl, rfl⟩
    · rintro ⟨rfl, e⟩
      have : l' = l := by
        cases l' <;> cases l <;> first | rfl | (simp [text, bytes, byte] at e)
      subst this
      rw [List.append_cancel_left e]
  have no : ∀ l' : Log, ¬ text l' <+: b → l = l' → b ≠ text l ++ rest := by
    rintro l' h rfl e
    exact h ⟨rest, e.symm⟩
  show Comb.or (level v (text .error) .error) (Comb.or (level v (text .warning) .warning)
    (Comb.or (level v (text .info) .info) (level v (text .debug) .debug))) ⟨m, b⟩ w = _ ↔ _
  have len : ∀ l', m = .endOfInput ∨ (text l').length ≤ b.length := by
    intro l'
    refine h.imp id fun h => ?_
    have : (text l').length ≤ 5 := by cases l' <;> decide
    omega
  by_cases h1 : text .error <+: b
  · obtain ⟨r, rfl⟩ := h1
    rw [ok, same]
  rw [or_level v _ _ _ m b w (len _) h1]
  by_cases h2 : text .warning <+: b
  · obtain ⟨r, rfl⟩ := h2
    rw [ok, same]
  rw [or_level v _ _ _ m b w (len _) h2]
  by_cases h3 : text .info <+: b
  · obtain ⟨r, rfl⟩ := h3
    rw [ok, same]
  rw [or_level v _ _ _ m b w (len _) h3, level_data]
  constructor
  · rintro ⟨rfl, rfl, _, e⟩; exact ⟨rfl, e⟩
  · rintro ⟨rfl, e⟩
    cases l with
    | error => exact absurd e (no _ h1 rfl)
    | warning => exact absurd e (no _ h2 rfl)
    | info => exact absurd e (no _ h3 rfl)
    | debug => exact ⟨rfl, rfl, rfl, e⟩

end Chomp.Docs
