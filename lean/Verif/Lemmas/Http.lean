import Verif.Spec.Http
import Verif.Props.Parsers
import Verif.Props.Choice
import Verif.Props.Repeat
import Verif.Props.Ascii

namespace Chomp.Http

open Spec Spec.Http Props

/-! ### Success of sequences -/

theorem bind_data {p : Parser σ I T E} {f : T → Parser σ I U E} {i i' : Input I} {u : U} {w w' : σ} :
    Parser.bind id p f i w = .ok (.data i' u, w') ↔
      ∃ i1 t w1, p i w = .ok (.data i1 t, w1) ∧ f t i1 w1 = .ok (.data i' u, w') := by
  unfold Parser.bind
  rw [M.bind_apply]
  match h : p i w with
  | .ok (.data i1 t, w1) =>
    rw [Res.bind_ok]
    dsimp only
    rw [ParseResult.bind_data]
    constructor
    · intro hf; exact ⟨i1, t, w1, rfl, hf⟩
    · rintro ⟨i2, t2, w2, h1, h2⟩; cases h1; exact h2
  | .ok (.error b e, w1) =>
    rw [Res.bind_ok]
    dsimp only
    rw [ParseResult.bind_error]
    constructor
    · intro hf; cases hf
    · rintro ⟨i2, t2, w2, h1, h2⟩; cases h1
  | .ok (.incomplete n, w1) =>
    rw [Res.bind_ok]
    dsimp only
    rw [ParseResult.bind_incomplete]
    constructor
    · intro hf; cases hf
    · rintro ⟨i2, t2, w2, h1, h2⟩; cases h1
  | .panic => simp
  | .ub => simp
  | .div => simp

theorem andThen_data {p : Parser σ I T E} {q : Parser σ I U E} {i i' : Input I} {u : U} {w w' : σ} :
    Parser.andThen id p q i w = .ok (.data i' u, w') ↔
      ∃ i1 t w1, p i w = .ok (.data i1 t, w1) ∧ q i1 w1 = .ok (.data i' u, w') :=
  bind_data (f := fun _ => q)

theorem bind_error_first {p : Parser σ I T E} {f : T → Parser σ I U E} {i : Input I} {b : List I} {e : E}
    {w w' : σ} (h : p i w = .ok (.error b e, w')) :
    Parser.bind id p f i w = .ok (.error b e, w') := by
  unfold Parser.bind
  rw [M.bind_ok h, ParseResult.bind_error]
  rfl

theorem andThen_error {p : Parser σ I T E} {q : Parser σ I U E} {i i1 : Input I} {t : T} {b : List I}
    {e : E} {w w1 w' : σ} (h : p i w = .ok (.data i1 t, w1)) (hq : q i1 w1 = .ok (.error b e, w')) :
    Parser.andThen id p q i w = .ok (.error b e, w') := by
  unfold Parser.andThen
  rw [M.bind_ok h, ParseResult.andThen, ParseResult.bind_data, hq]

theorem ret_data {t u : T} {i i' : Input I} {w w' : σ} :
    (Parser.ret t : Parser σ I T E) i w = .ok (.data i' u, w') ↔ i' = i ∧ u = t ∧ w' = w := by
  constructor
  · intro h; cases h; exact ⟨rfl, rfl, rfl⟩
  · rintro ⟨rfl, rfl, rfl⟩; rfl

theorem token_data [DecidableEq I] {v : Bool} {c x : I} {m : Mode} {b : List I} {i : Input I}
    {w w' : σ} : Parsers.token v c ⟨m, b⟩ w = .ok (.data i x, w') ↔
      x = c ∧ w' = w ∧ i.mode = m ∧ b = c :: i.buf := by
  rw [Parsers.token_eq]
  obtain ⟨mi, bi⟩ := i
  cases b with
  | nil => simp
  | cons d r =>
    dsimp only
    by_cases h : c = d
    · subst h
      rw [if_pos rfl]
      constructor
      · intro h; cases h; exact ⟨rfl, rfl, rfl, rfl⟩
      · rintro ⟨rfl, rfl, rfl, h⟩; cases h; rfl
    · rw [if_neg h]
      constructor
      · intro h; cases h
      · rintro ⟨_, _, _, h'⟩; cases h'; exact absurd rfl h

theorem takeWhile1_data {v : Bool} {f : I → Bool} {m : Mode} {b x : List I} {i : Input I} {w w' : σ} :
    Parsers.takeWhile1 v f ⟨m, b⟩ w = .ok (.data i x, w') ↔
      w' = w ∧ i.mode = m ∧ b = x ++ i.buf ∧ x ≠ [] ∧ MaxPrefix f x i.buf ∧
        (m = .default → i.buf ≠ []) := by
  obtain ⟨x0, y0, rfl, h0⟩ := MaxPrefix.exists f b
  by_cases hx : x0 = []
  · subst hx
    have hno : ∀ x y, y0 = x ++ y → x ≠ [] → ¬ MaxPrefix f x y := by
      intro x y e hx h
      cases x with
      | nil => exact hx rfl
      | cons c x =>
        have h1 := h0.2 c _ e
        have h2 := h.1 c (by simp)
        rw [h1] at h2
        cases h2
    rw [List.nil_append]
    constructor
    · intro h
      cases y0 with
      | nil => rw [C14_take_while1_empty] at h; cases h
      | cons c r => rw [C14_take_while1_err _ _ _ _ _ (h0.2 c r rfl)] at h; cases h
    · rintro ⟨_, _, e, h1, h2, _⟩
      exact absurd h2 (hno _ _ e h1)
  · rw [C14_take_while1 v f m x0 y0 hx h0, ← C13_take_while f m x0 y0 h0 w, C13_take_while_iff]
    constructor
    · rintro ⟨h1, h2, h3, h4, h5⟩
      refine ⟨h1, h2, h3, ?_, h4, h5⟩
      rintro rfl
      have a := h0.takeWhile
      have b := h4.takeWhile
      rw [h3, b.1] at a
      exact hx a.1.symm
    · rintro ⟨h1, h2, h3, _, h4, h5⟩
      exact ⟨h1, h2, h3, h4, h5⟩

theorem takeTill_data {f : I → Bool} {m : Mode} {b x : List I} {i : Input I} {w w' : σ} :
    Parsers.takeTill f ⟨m, b⟩ w = .ok (.data i x, w') ↔
      w' = w ∧ i.mode = m ∧ b = x ++ i.buf ∧ (∀ c ∈ x, f c = false) ∧
        ∃ c r, i.buf = c :: r ∧ f c = true := by
  obtain ⟨mi, bi⟩ := i
  constructor
  · intro h
    obtain ⟨x0, y0, rfl, h0⟩ := MaxPrefix.exists (fun c => !f c) b
    have hx : ∀ c ∈ x0, f c = false := fun c hc => by simpa using h0.1 c hc
    cases y0 with
    | nil =>
      rw [List.append_nil, C15_take_till_none _ _ _ hx] at h
      cases h
    | cons c r =>
      have hc : f c = true := by simpa using h0.2 c r rfl
      rw [C15_take_till _ _ _ _ _ hx hc] at h
      cases h
      exact ⟨rfl, rfl, rfl, hx, c, r, rfl, hc⟩
  · rintro ⟨rfl, rfl, rfl, hx, c, r, e, hc⟩
    dsimp only at e ⊢
    subst e
    exact C15_take_till _ _ _ _ _ hx hc _

/-! ### Kinds of bytes -/

theorem isToken_iff (c : UInt8) : isToken c = true ↔ Token c := by
  revert c; unfold Token
  refine forall_byte (fun n => ?_)
  revert n
  set_option maxRecDepth 8192 in decide

theorem isHttpVersion_iff (c : UInt8) : isHttpVersion c = true ↔ Version c := by
  revert c; unfold Version
  refine forall_byte (fun n => ?_)
  revert n
  set_option maxRecDepth 8192 in decide

theorem isHorizontalSpace_iff (c : UInt8) :
    isHorizontalSpace c = true ↔ c = byte ' ' ∨ c = byte '\t' := by
  unfold isHorizontalSpace; simp; rfl

theorem isSpace_iff (c : UInt8) : isSpace c = true ↔ c = byte ' ' := by
  unfold isSpace; simp; rfl

theorem isNotSpace_iff (c : UInt8) : isNotSpace c = true ↔ c ≠ byte ' ' := by
  unfold isNotSpace; simp; rfl

theorem isEndOfLine_iff (c : UInt8) : isEndOfLine c = false ↔ c ≠ byte '\r' ∧ c ≠ byte '\n' := by
  unfold isEndOfLine; simp; rfl

/-! ### The parsers -/

theorem endOfLine_data {v : Bool} {m : Mode} {b : List UInt8} {i : Input UInt8} {x : UInt8} {w w' : σ}
    (h : endOfLine v ⟨m, b⟩ w = .ok (.data i x, w')) :
    w' = w ∧ i.mode = m ∧ ∃ e, Eol e ∧ b = e ++ i.buf := by
  have second : ∀ w1, Parsers.token v 10 ⟨m, b⟩ w1 = .ok (.data i x, w') →
      w' = w1 ∧ i.mode = m ∧ ∃ e, Eol e ∧ b = e ++ i.buf := by
    intro w1 h
    obtain ⟨_, h1, h2, h3⟩ := token_data.mp h
    exact ⟨h1, h2, bytes "\n", .inr rfl, h3⟩
  unfold endOfLine at h
  match b with
  | [] =>
    rw [C20_or_incomplete _ _ _ _ 1 _ w rfl] at h
    split at h
    · exact second w h
    · cases h
  | c :: r =>
    by_cases hc : 13 = c
    · subst hc
      match r with
      | [] =>
        rw [C20_or_incomplete _ _ _ _ 1 _ w rfl] at h
        split at h
        · exact second w h
        · cases h
      | d :: r =>
        by_cases hd : 10 = d
        · subst hd
          rw [C20_or_ok _ _ _ ⟨m, r⟩ 13 _ w (andThen_data.mpr ⟨⟨m, 10 :: r⟩, 13, w, rfl,
            andThen_data.mpr ⟨⟨m, r⟩, 10, w, rfl, rfl⟩⟩)] at h
          cases h
          exact ⟨rfl, rfl, bytes "\r\n", .inl rfl, rfl⟩
        · have e1 : Parsers.token v 10 ⟨m, d :: r⟩ w =
              .ok (.error (d :: r) (Err.expected v 10), w) := by
            rw [Parsers.token_eq]; dsimp only; rw [if_neg hd]
          have e2 : Parser.andThen id (Parsers.token v 13) (Parser.andThen id (Parsers.token v 10)
              (Parser.ret (13 : UInt8))) ⟨m, 13 :: d :: r⟩ w = .ok (.error (d :: r) (Err.expected v 10), w) := by
            exact andThen_error (i1 := ⟨m, d :: r⟩) rfl (bind_error_first (f := fun _ => _) e1)
          rw [C20_or_err _ _ _ _ _ _ _ e2] at h
          exact second w h
    · have e1 : Parsers.token v 13 ⟨m, c :: r⟩ w =
          .ok (.error (c :: r) (Err.expected v 13), w) := by
        rw [Parsers.token_eq]; dsimp only; rw [if_neg hc]
      have e2 : Parser.andThen id (Parsers.token v 13) (Parser.andThen id (Parsers.token v 10)
          (Parser.ret (13 : UInt8))) ⟨m, c :: r⟩ w = .ok (.error (c :: r) (Err.expected v 13), w) :=
        bind_error_first (f := fun _ => _) e1
      rw [C20_or_err _ _ _ _ _ _ _ e2] at h
      exact second w h

theorem endOfLine_eol {v : Bool} {m : Mode} {e b : List UInt8} (he : Eol e) (w : σ) :
    ∃ x, endOfLine v ⟨m, e ++ b⟩ w = .ok (.data ⟨m, b⟩ x, w) := by
  rcases he with rfl | rfl
  · refine ⟨13, C20_or_ok _ _ _ _ _ _ _ ?_⟩
    exact andThen_data.mpr ⟨⟨m, 10 :: b⟩, 13, w, rfl, andThen_data.mpr ⟨⟨m, b⟩, 10, w, rfl, rfl⟩⟩
  · refine ⟨10, ?_⟩
    refine (C20_or_err _ _ _ (10 :: b) (Err.expected v 13) _ w ?_).trans rfl
    exact bind_error_first (f := fun _ => _) rfl

/-- One or more bytes of a kind, up to a byte which is not of the kind. -/
theorem takeWhile1_run {v : Bool} {f : UInt8 → Bool} {K : UInt8 → Prop} (hk : ∀ c, f c = true ↔ K c)
    {m : Mode} {x y : List UInt8} (hx : Run K x) (hy : ∃ c r, y = c :: r ∧ ¬ K c) (w : σ) :
    Parsers.takeWhile1 v f ⟨m, x ++ y⟩ w = .ok (.data ⟨m, y⟩ x, w) := by
  obtain ⟨c, r, rfl, hc⟩ := hy
  refine takeWhile1_data.mpr ⟨rfl, rfl, rfl, hx.1, ⟨fun d hd => (hk d).mpr (hx.2 d hd), ?_⟩, by simp⟩
  intro d r' e
  cases e
  exact Bool.eq_false_iff.mpr (fun h => hc ((hk c).mp h))

theorem run_of {v : Bool} {f : UInt8 → Bool} {K : UInt8 → Prop} (hk : ∀ c, f c = true ↔ K c) {m : Mode}
    {b x : List UInt8} {i : Input UInt8} {w w' : σ}
    (h : Parsers.takeWhile1 v f ⟨m, b⟩ w = .ok (.data i x, w')) :
    w' = w ∧ i.mode = m ∧ b = x ++ i.buf ∧ Run K x ∧ (∀ c r, i.buf = c :: r → ¬ K c) := by
  obtain ⟨h1, h2, h3, h4, h5, _⟩ := takeWhile1_data.mp h
  refine ⟨h1, h2, h3, ⟨h4, fun c hc => (hk c).mp (h5.1 c hc)⟩, fun c r e hc => ?_⟩
  have := h5.2 c r e
  rw [(hk c).mpr hc] at this
  cases this

theorem Run.head {K : UInt8 → Prop} {x : List UInt8} (h : Run K x) : ∃ c r, x = c :: r ∧ K c := by
  match x, h with
  | [], h => exact absurd rfl h.1
  | c :: r, h => exact ⟨c, r, rfl, h.2 c (by simp)⟩

theorem Eol.head {e : List UInt8} (h : Eol e) : ∃ c r, e = c :: r ∧ (c = byte '\r' ∨ c = byte '\n') := by
  rcases h with rfl | rfl
  · exact ⟨_, _, rfl, .inl rfl⟩
  · exact ⟨_, _, rfl, .inr rfl⟩

/-- Lines. -/
theorem line_data {v : Bool} {m : Mode} {b x : List UInt8} {i : Input UInt8} {w w' : σ} :
    messageHeaderLine v ⟨m, b⟩ w = .ok (.data i x, w') ↔
      w' = w ∧ i.mode = m ∧ ∃ t, LineText t x ∧ b = t ++ i.buf := by
  unfold messageHeaderLine
  constructor
  · intro h
    obtain ⟨⟨m1, b1⟩, blank, w1, h1, h⟩ := andThen_data.mp h
    obtain ⟨⟨m2, b2⟩, line, w2, h2, h⟩ := bind_data.mp h
    obtain ⟨⟨m3, b3⟩, e, w3, h3, h⟩ := andThen_data.mp h
    obtain ⟨rfl, rfl, rfl⟩ := ret_data.mp h
    obtain ⟨rfl, rfl, rfl, hb, hs⟩ := run_of isHorizontalSpace_iff h1
    obtain ⟨rfl, rfl, h4, hl, c, r, hr, hc⟩ := takeTill_data.mp h2
    obtain ⟨rfl, rfl, eol, he, h5⟩ := endOfLine_data h3
    dsimp only at *
    subst h4 h5
    refine ⟨rfl, rfl, _, .mk hb (fun c hc => (isEndOfLine_iff c).mp (hl c hc)) ?_ he,
      by simp only [List.append_assoc]⟩
    rintro c r rfl
    have := hs c _ rfl
    simpa using this
  · rintro ⟨rfl, rfl, _, ⟨hb, hl, hs, he⟩, rfl⟩
    rename_i blank eol
    obtain ⟨mi, bi⟩ := i
    dsimp only
    obtain ⟨c, r, rfl, hc⟩ := Eol.head he
    have hc' : isEndOfLine c = true := by rcases hc with rfl | rfl <;> rfl
    obtain ⟨z, hz⟩ := endOfLine_eol (v := v) (m := mi) (b := bi) he w'
    rw [List.append_assoc, List.append_assoc]
    refine andThen_data.mpr ⟨⟨mi, x ++ (c :: r ++ bi)⟩, blank, w',
      takeWhile1_run isHorizontalSpace_iff hb ?_ _, bind_data.mpr ⟨⟨mi, c :: r ++ bi⟩, x, w', ?_,
      andThen_data.mpr ⟨⟨mi, bi⟩, z, w', hz, rfl⟩⟩⟩
    · match x, hs with
      | [], _ => exact ⟨c, _, rfl, by rcases hc with rfl | rfl <;> decide⟩
      | d :: x, hs => exact ⟨d, _, rfl, by have := hs d x rfl; simpa using this⟩
    · exact C15_take_till _ _ _ _ _ (fun c h => (isEndOfLine_iff c).mpr (hl c h)) hc' _

/-- A parser which recognises texts, whatever follows. -/
theorem reps_sequence {p : Parser σ UInt8 α E} {Text : List UInt8 → α → Prop}
    (hp : ∀ {m b i x w w'}, p ⟨m, b⟩ w = .ok (.data i x, w') →
      w' = w ∧ i.mode = m ∧ ∃ t, Text t x ∧ b = t ++ i.buf)
    {i i' : Input UInt8} {xs : List α} {w w' : σ} (h : Reps p i w xs i' w') :
    w' = w ∧ i'.mode = i.mode ∧ ∃ t, Sequence Text t xs ∧ i.buf = t ++ i'.buf := by
  induction h with
  | nil => exact ⟨rfl, rfl, [], .nil, rfl⟩
  | cons h1 _ ih =>
    obtain ⟨rfl, g1, t, g2, g3⟩ := hp h1
    obtain ⟨k1, k2, t', k3, k4⟩ := ih
    exact ⟨k1, k2.trans g1, t ++ t', .cons g2 k3, by rw [List.append_assoc, ← k4]; exact g3⟩

theorem sequence_reps {p : Parser σ UInt8 α E} {Text : List UInt8 → α → Prop} {m : Mode} {w : σ}
    (Next : List UInt8 → Prop)
    (hp : ∀ {t x y}, Text t x → Next y → p ⟨m, t ++ y⟩ w = .ok (.data ⟨m, y⟩ x, w))
    (hn : ∀ {t x y}, Text t x → Next (t ++ y))
    {ts y : List UInt8} {xs : List α} (h : Sequence Text ts xs) (hy : Next y) :
    Reps p ⟨m, ts ++ y⟩ w xs ⟨m, y⟩ w := by
  induction h with
  | nil => exact .nil
  | @cons b x bs xs h1 h2 ih =>
    rw [List.append_assoc]
    refine .cons (hp h1 ?_) ih
    cases h2 with
    | nil => exact hy
    | cons h2 _ => rw [List.append_assoc]; exact hn h2

theorem many1_data {p : Parser σ I U E} {i i' : Input I} {us : List U} {w w' : σ}
    (h : Comb.many1 (Collect.vec U) p i w = .ok (.data i' us, w')) :
    us ≠ [] ∧ ∃ w1, Reps p i w us i' w1 ∧ ((∃ b e, p i' w1 = .ok (.error b e, w')) ∨
      (∃ n, p i' w1 = .ok (.incomplete n, w'))) := by
  have hl : 1 ≤ us.length := C24_at_least 1 p i i' w w' us h
  rw [C24_many1 p i w _ (by simp)] at h
  obtain ⟨w1, hr, ⟨hm, _⟩ | ⟨_, _, h⟩⟩ := h.data_inv
  · cases hm
  · refine ⟨by rintro rfl; simp at hl, w1, hr, ?_⟩
    rcases h with h | ⟨_, h⟩
    · exact .inl h
    · exact .inr h

/-! From here on there is no captured state: the functions of the example are not closures. -/

/-- The input of a parser which cannot start at `y`, because of its first byte. -/
theorem takeWhile1_fails {v : Bool} {f : UInt8 → Bool} {K : UInt8 → Prop} (hk : ∀ c, f c = true ↔ K c)
    {m : Mode} {y : List UInt8} (hy : ∃ c r, y = c :: r ∧ ¬ K c) (w : σ) :
    ∃ e, Parsers.takeWhile1 v f ⟨m, y⟩ w = .ok (.error y e, w) := by
  obtain ⟨c, r, rfl, hc⟩ := hy
  exact ⟨_, C14_take_while1_err v f m c r (Bool.eq_false_iff.mpr (fun h => hc ((hk c).mp h))) w⟩

theorem LineText.blank {t x : List UInt8} (h : LineText t x) :
    ∃ c r, t = c :: r ∧ (c = byte ' ' ∨ c = byte '\t') := by
  obtain ⟨hb, _, _, _⟩ := h
  obtain ⟨c, r, rfl, hc⟩ := Run.head hb
  exact ⟨c, _, rfl, hc⟩

theorem HeaderText.token {t : List UInt8} {x : Header} (h : HeaderText t x) :
    ∃ c r, t = c :: r ∧ Token c := by
  obtain ⟨hn, _, _⟩ := h
  obtain ⟨c, r, rfl, hc⟩ := Run.head hn
  exact ⟨c, _, rfl, hc⟩

/-- Whatever comes after a header. -/
theorem token_not_blank {c : UInt8} (h : Token c) : ¬ (c = byte ' ' ∨ c = byte '\t') := by
  rintro (rfl | rfl)
  · exact absurd h.1 (by decide)
  · exact absurd h.1 (by decide)

theorem eol_not_token {c : UInt8} (h : c = byte '\r' ∨ c = byte '\n') : ¬ Token c := by
  rcases h with rfl | rfl <;> exact fun h => absurd h.1 (by decide)

theorem eol_not_blank {c : UInt8} (h : c = byte '\r' ∨ c = byte '\n') :
    ¬ (c = byte ' ' ∨ c = byte '\t') := by
  rcases h with rfl | rfl <;> decide

theorem header_data {v : Bool} {m : Mode} {b : List UInt8} {x : Header} {i : Input UInt8} {w w' : Unit}
    (h : messageHeader v ⟨m, b⟩ w = .ok (.data i x, w')) :
    w' = w ∧ i.mode = m ∧ ∃ t, HeaderText t x ∧ b = t ++ i.buf := by
  unfold messageHeader at h
  obtain ⟨⟨m1, b1⟩, name, w1, h1, h⟩ := bind_data.mp h
  obtain ⟨⟨m2, b2⟩, c, w2, h2, h⟩ := andThen_data.mp h
  obtain ⟨⟨m3, b3⟩, lines, w3, h3, h⟩ := bind_data.mp h
  obtain ⟨rfl, rfl, rfl⟩ := ret_data.mp h
  obtain ⟨rfl, rfl, rfl, hn, _⟩ := run_of isToken_iff h1
  obtain ⟨rfl, rfl, rfl, h4⟩ := token_data.mp h2
  obtain ⟨hne, _, hr, _⟩ := many1_data h3
  obtain ⟨_, g1, t, g2, g3⟩ := reps_sequence (fun h => line_data.mp h) hr
  dsimp only at *
  subst h4 g3 g1
  exact ⟨rfl, rfl, _, .mk hn g2 hne, by simp [bytes, byte]⟩

theorem header_text {v : Bool} {m : Mode} {t y : List UInt8} {x : Header} (h : HeaderText t x)
    (hy : ∃ c r, y = c :: r ∧ ¬ (c = byte ' ' ∨ c = byte '\t')) (w : Unit) :
    messageHeader v ⟨m, t ++ y⟩ w = .ok (.data ⟨m, y⟩ x, w) := by
  obtain ⟨hn, hl, hne⟩ := h
  rename_i name lines value
  rw [List.append_assoc, List.append_assoc]
  refine bind_data.mpr ⟨⟨m, bytes ":" ++ (lines ++ y)⟩, name, w,
    takeWhile1_run isToken_iff hn ⟨_, _, rfl, fun h => absurd h.2.2 (by decide)⟩ _,
    andThen_data.mpr ⟨⟨m, lines ++ y⟩, _, w, rfl, bind_data.mpr ⟨⟨m, y⟩, value, w, ?_, rfl⟩⟩⟩
  obtain ⟨e, he⟩ := takeWhile1_fails (v := v) (m := m) isHorizontalSpace_iff hy w
  refine (C24_many1 _ _ _ _ (by simp)).mpr (.stop_error (b := y) (e := e) (w' := w) ?_ nofun
    (bind_error_first (f := fun _ => _) he) (List.length_pos_iff.mpr hne))
  exact sequence_reps (fun _ => True) (fun h _ => line_data.mpr ⟨rfl, rfl, _, h, rfl⟩) (fun _ => trivial)
    hl trivial

theorem request_data {v : Bool} {m : Mode} {b : List UInt8} {x : Request × List Header}
    {i : Input UInt8} {w w' : Unit} :
    request v ⟨m, b⟩ w = .ok (.data i x, w') ↔ i.mode = m ∧ ∃ t, RequestText t x ∧ b = t ++ i.buf := by
  unfold request requestLine httpVersion
  constructor
  · intro h
    obtain ⟨⟨m1, b1⟩, r, w1, h1, h⟩ := bind_data.mp h
    obtain ⟨⟨m2, b2⟩, c2, w2, h2, h⟩ := andThen_data.mp h
    obtain ⟨⟨m3, b3⟩, hs, w3, h3, h⟩ := bind_data.mp h
    obtain ⟨⟨m4, b4⟩, c4, w4, h4, h⟩ := andThen_data.mp h
    obtain ⟨rfl, rfl, _⟩ := ret_data.mp h
    obtain ⟨⟨m5, b5⟩, method, w5, h5, h1⟩ := bind_data.mp h1
    obtain ⟨⟨m6, b6⟩, blank, w6, h6, h1⟩ := andThen_data.mp h1
    obtain ⟨⟨m7, b7⟩, uri, w7, h7, h1⟩ := bind_data.mp h1
    obtain ⟨⟨m8, b8⟩, blank', w8, h8, h1⟩ := andThen_data.mp h1
    obtain ⟨⟨m9, b9⟩, version, w9, h9, h1⟩ := bind_data.mp h1
    obtain ⟨⟨ma, ba⟩, http, wa, ha, h9⟩ := andThen_data.mp h9
    obtain ⟨e1, rfl, _⟩ := ret_data.mp h1
    obtain ⟨_, k5, g5, r5, _⟩ := run_of isToken_iff h5
    obtain ⟨_, k6, g6, r6, _⟩ := run_of isSpace_iff h6
    obtain ⟨_, k7, g7, r7, _⟩ := run_of isNotSpace_iff h7
    obtain ⟨_, k8, g8, r8, _⟩ := run_of isSpace_iff h8
    obtain ⟨_, _, ka, ga⟩ := (C17_string_iff ..).mp ha
    obtain ⟨_, k9, g9, r9, _⟩ := run_of isHttpVersion_iff h9
    obtain ⟨_, k2, eol, r2, g2⟩ := endOfLine_data h2
    obtain ⟨_, hr, _⟩ := (C23_many_ok ..).mp h3
    obtain ⟨_, k3, t3, r3, g3⟩ := reps_sequence header_data hr
    obtain ⟨_, k4, eol', r4, g4⟩ := endOfLine_data h4
    cases e1
    dsimp only at *
    subst k5 k6 k7 k8 ka k9 k2 k3 k4
    subst g5 g6 g7 g8 ga g9 g2 g3 g4
    exact ⟨rfl, _, .mk r5 r6 r7 r8 r9 r2 r3 r4,
      by simp [bytes, byte]⟩
  · rintro ⟨rfl, _, ⟨r1, r2, r3, r4, r5, r6, r7, r8⟩, rfl⟩
    rename_i method blank uri blank' version eol hs eol' headers
    obtain ⟨m, y⟩ := i
    dsimp only
    obtain ⟨z, hz⟩ := endOfLine_eol (v := v) (m := m) (b := hs ++ (eol' ++ y)) r6 w
    obtain ⟨z', hz'⟩ := endOfLine_eol (v := v) (m := m) (b := y) r8 w
    have n2 := Run.head r2
    have n3 := Run.head r3
    have n4 := Run.head r4
    have n6 := Eol.head r6
    have n8 := Eol.head r8
    have app : ∀ {K : UInt8 → Prop} {x : List UInt8} (y : List UInt8),
        (∃ c r, x = c :: r ∧ K c) → ∃ c r, x ++ y = c :: r ∧ K c := by
      rintro K _ y ⟨c, r, rfl, hc⟩
      exact ⟨c, r ++ y, rfl, hc⟩
    have weak : ∀ {K K' : UInt8 → Prop} {x : List UInt8}, (∀ c, K c → K' c) →
        (∃ c r, x = c :: r ∧ K c) → ∃ c r, x = c :: r ∧ K' c := by
      rintro K K' _ hk ⟨c, r, rfl, hc⟩
      exact ⟨c, r, rfl, hk c hc⟩
    simp only [List.append_assoc]
    refine bind_data.mpr ⟨⟨m, eol ++ (hs ++ (eol' ++ y))⟩, _, w, ?_,
      andThen_data.mpr ⟨⟨m, hs ++ (eol' ++ y)⟩, z, w, hz,
      bind_data.mpr ⟨⟨m, eol' ++ y⟩, headers, w, ?_,
      andThen_data.mpr ⟨⟨m, y⟩, z', w, hz', rfl⟩⟩⟩⟩
    · refine bind_data.mpr ⟨⟨m, _⟩, method, w, takeWhile1_run isToken_iff r1 (app _ (weak ?_ n2)) _, ?_⟩
      · rintro c rfl h; exact absurd h.1 (by decide)
      refine andThen_data.mpr ⟨⟨m, _⟩, blank, w, takeWhile1_run isSpace_iff r2 (app _ n3) _, ?_⟩
      refine bind_data.mpr ⟨⟨m, _⟩, uri, w, takeWhile1_run isNotSpace_iff r3 (app _ (weak ?_ n4)) _, ?_⟩
      · intro c h h'; exact h' h
      refine andThen_data.mpr ⟨⟨m, _⟩, blank', w,
        takeWhile1_run isSpace_iff r4 ⟨_, _, rfl, by decide⟩ _, ?_⟩
      refine bind_data.mpr ⟨⟨m, _⟩, version, w, andThen_data.mpr ⟨⟨m, _⟩, _, w,
        C17_string_match v (bytes "HTTP/") _ m w,
        takeWhile1_run isHttpVersion_iff r5 (app _ (weak ?_ n6)) _⟩, rfl⟩
      rintro c (rfl | rfl) <;> unfold Version <;> decide
    · obtain ⟨e, he⟩ := takeWhile1_fails (v := v) (m := m) (y := eol' ++ y) isToken_iff
        (app _ (weak (fun c h => eol_not_token h) n8)) w
      refine (C23_many_ok ..).mpr ⟨w, ?_, .inl ⟨_, e, bind_error_first he⟩⟩
      refine sequence_reps (fun y => ∃ c r, y = c :: r ∧ ¬ (c = byte ' ' ∨ c = byte '\t'))
        (fun h hy => header_text h hy w) (fun h => ?_) r7 (app _ (weak (fun c h => eol_not_blank h) n8))
      exact app _ (weak (fun c h => token_not_blank h) (HeaderText.token h))

end Chomp.Http
