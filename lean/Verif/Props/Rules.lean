import Verif.Lemmas.Rules
import Verif.Spec.Values
import Verif.Props.Ascii
import Verif.Props.Peg
import Verif.Props.Retry

/-
C103: parsers and grammars with values. `Follows p r` says that `p` is written like the rule `r`, in which what
follows a part may depend on its value; `Gives G r x o` is the meaning of `r` in the grammar `G`
(Verif/Spec/Rules.lean).
-/

namespace Chomp.Props

open Spec Spec.Rule

variable {K : Type} {σ I : Type} {T E : K → Type}

/-- A rule has at most one outcome, and what is left is an end of the input. -/
theorem C103_deterministic (G : ∀ k, Rule K T I (T k)) {T' : Type} (r : Rule K T I T') (x : List I)
    (o o' : Option (T' × List I)) (h : Gives G r x o) (h' : Gives G r x o') :
    o = o' ∧ ∀ t y, o = some (t, y) → ∃ z, x = z ++ y :=
  ⟨Rules.gives_det G r _ _ _ h h', fun t y e' => Rules.gives_ends G r x t y (e' ▸ h)⟩

/-- The parser succeeds with `t` and leaves `y` if and only if the rule does. -/
theorem C103_success (G : ∀ k, Rule K T I (T k)) (F : Fns σ I T E → Fns σ I T E)
    (hF : ∀ k, Follows (fun q => F q k) (G k)) (p : Fns σ I T E) (hp : Means F p) {T' E' : Type}
    (x : Fns σ I T E → Parser σ I T' E') (r : Rule K T I T') (hx : Follows x r) (b y : List I) (t : T') (w : σ) :
    (∃ w', x p ⟨.endOfInput, b⟩ w = .ok (.data ⟨.endOfInput, y⟩ t, w')) ↔ Gives G r b (some (t, y)) := by
  have h := Rules.follows_gives hF hp hx
  exact ⟨fun ⟨_, h'⟩ => (h.of_data h').2, fun h' => h.data (Rules.gives_det G r) h' w⟩

/-- It fails, with an error or incomplete, if and only if the rule fails. -/
theorem C103_failure (G : ∀ k, Rule K T I (T k)) (F : Fns σ I T E → Fns σ I T E)
    (hF : ∀ k, Follows (fun q => F q k) (G k)) (p : Fns σ I T E) (hp : Means F p) {T' E' : Type}
    (x : Fns σ I T E → Parser σ I T' E') (r : Rule K T I T') (hx : Follows x r) (b : List I) (w : σ) :
    ((∃ r e w', x p ⟨.endOfInput, b⟩ w = .ok (.error r e, w')) ∨
      ∃ n w', x p ⟨.endOfInput, b⟩ w = .ok (.incomplete n, w')) ↔ Gives G r b none := by
  have h := Rules.follows_gives hF hp hx
  refine ⟨?_, fun h' => h.fail (Rules.gives_det G r) h' w⟩
  rintro (⟨_, _, _, h'⟩ | ⟨_, _, h'⟩)
  · exact h.of_error h'
  · exact h.of_incomplete h'

/-- It does not return if and only if the rule neither succeeds nor fails. -/
theorem C103_endless (G : ∀ k, Rule K T I (T k)) (F : Fns σ I T E → Fns σ I T E)
    (hF : ∀ k, Follows (fun q => F q k) (G k)) (p : Fns σ I T E) (hp : Means F p) {T' E' : Type}
    (x : Fns σ I T E → Parser σ I T' E') (r : Rule K T I T') (hx : Follows x r) (b : List I) (w : σ) :
    x p ⟨.endOfInput, b⟩ w = .div ↔ ∀ o, ¬ Gives G r b o := by
  have h := Rules.follows_gives hF hp hx
  refine ⟨fun h' => h.of_div h', fun h' => ?_⟩
  have := h b w
  generalize x p ⟨.endOfInput, b⟩ w = r at this
  cases this with
  | data h => exact absurd h (h' _)
  | error h => exact absurd h (h' _)
  | incomplete h => exact absurd h (h' _)
  | div h => rfl

/-- There is nothing else it may do. -/
theorem C103_safe (G : ∀ k, Rule K T I (T k)) (F : Fns σ I T E → Fns σ I T E)
    (hF : ∀ k, Follows (fun q => F q k) (G k)) (p : Fns σ I T E) (hp : Means F p) {T' E' : Type}
    (x : Fns σ I T E → Parser σ I T' E') (r : Rule K T I T') (hx : Follows x r) (b : List I) (w : σ) :
    x p ⟨.endOfInput, b⟩ w ≠ .panic ∧ x p ⟨.endOfInput, b⟩ w ≠ .ub :=
  ⟨(Rules.follows_gives hF hp hx).not_panic, (Rules.follows_gives hF hp hx).not_ub⟩

/-- `parse_only` gives the value of the rule on a beginning of the slice. -/
theorem C103_parse_only (G : ∀ k, Rule K T I (T k)) (F : Fns σ I T E → Fns σ I T E)
    (hF : ∀ k, Follows (fun q => F q k) (G k)) (p : Fns σ I T E) (hp : Means F p) {T' E' : Type}
    (x : Fns σ I T E → Parser σ I T' E') (r : Rule K T I T') (hx : Follows x r) (b : List I) (t : T') (w : σ) :
    (∃ w', parseOnly (x p) b w = .ok (.ok t, w')) ↔ ∃ y, Gives G r b (some (t, y)) := by
  have h := Rules.follows_gives hF hp hx
  constructor
  · rintro ⟨w', h'⟩
    obtain ⟨rest, h'⟩ := (C10_parse_only_ok _ _ _ _ _).mp h'
    exact ⟨_, (h.of_data h').2⟩
  · rintro ⟨y, h'⟩
    obtain ⟨w', h'⟩ := h.data (Rules.gives_det G r) h' w
    exact ⟨w', (C10_parse_only_ok _ _ _ _ _).mpr ⟨_, h'⟩⟩

/-- On a slice which is not the last one, a success is one for every continuation of the input, with the same
value, and so is an error a failure. -/
theorem C103_streaming (G : ∀ k, Rule K T I (T k)) (F : Fns σ I T E → Fns σ I T E)
    (hF : ∀ k, Follows (fun q => F q k) (G k)) (hB : ∀ k, Body streaming (fun q => F q k)) (p : Fns σ I T E)
    (hp : Means F p) (k : K) (b rest : List I) (w w' : σ) :
    (∀ r t, p k ⟨.default, b⟩ w = .ok (.data r t, w') →
      Gives G (.call k) (b ++ rest) (some (t, r.buf ++ rest))) ∧
    (∀ r e, p k ⟨.default, b⟩ w = .ok (.error r e, w') → Gives G (.call k) (b ++ rest) none) := by
  have hs := C90_stable F hB p hp k b rest .endOfInput w w'
  have h := Rules.means_acc hF hp k
  exact ⟨fun r t h' => (h.of_data (hs.1 r t h').2).2, fun r e h' => h.of_error (hs.2 r e h')⟩

/-- `decimal` without overflow checks is written like a rule for a digit and any digits after it; its value is
what the digits stand for, modulo the size of the type. -/
theorem C103_decimal (v : Bool) (t : Ascii.IntTy) (ht : HoldsU8 t) (hc : t.checked = false) :
    ∃ g : List UInt8 → Int,
      (∀ ds, ds ≠ [] → (∀ c ∈ ds, 48 ≤ c ∧ c ≤ 57) → Wraps t (value ds) (g ds)) ∧
      Follows (K := K) (σ := σ) (I := UInt8) (T := T) (E := E) (fun _ => Ascii.decimal v t.num)
        (.map (.cons (.one fun c => decide (48 ≤ c ∧ c ≤ 57)) (.star (.one fun c => decide (48 ≤ c ∧ c ≤ 57)))) g)
        := by
  have e : (fun c : UInt8 => decide (48 ≤ c ∧ c ≤ 57)) = Ascii.isDigit := by
    funext c
    simp [Ascii.isDigit]
  have h1 : Total t.num := by
    obtain ⟨bits, signed, checked⟩ := t
    cases hc
    exact wrapping_total bits signed
  have h2 := PegEx.computes_num t
  refine ⟨Rules.digitsValue t.num, fun ds hne hd => ?_, ?_⟩
  · obtain ⟨x, h3, h4⟩ := C39_wrapping (σ := Unit) v t ht hc .endOfInput ds [] () ⟨hne, hd, rfl⟩
    have h5 := Rules.digitsValue_ok h1 h2 ds
    rw [List.append_nil, Peg.decimal_eq] at h3
    have h6 : Parsers.takeWhile1 v Ascii.isDigit ⟨.endOfInput, ds⟩ () =
        .ok (.data ⟨.endOfInput, []⟩ ds, ()) := by
      have := C14_take_while1 v Ascii.isDigit .endOfInput ds [] hne
        ⟨fun c hc => by rw [← e]; exact decide_eq_true (hd c hc), nofun⟩ ()
      rwa [List.append_nil] at this
    unfold Closures.map at h3
    rw [M.bind_ok h6] at h3
    dsimp only [ParseResult.map] at h3
    rw [h5] at h3
    cases h3
    exact h4
  · rw [e]
    rw [show (fun _ : Fns σ UInt8 T E => (Ascii.decimal v t.num : Parser σ UInt8 Int (Error UInt8))) = fun _ => _ from
      funext fun _ => Peg.decimal_eq v t.num]
    exact .mapM _ _ (fun b w => ⟨w, by rw [Rules.digitsValue_ok h1 h2]; rfl⟩) (.takeWhile1 v _)

/-- `signed(p)` without overflow checks: a sign or nothing, then `p`; the value is that of `p`, negated after a
`-`, modulo the size of the type. -/
theorem C103_signed (v : Bool) (t : Ascii.IntTy) (ht : HoldsU8 t) (hc : t.checked = false)
    (p : Fns σ UInt8 T E → Parser σ UInt8 Int (Error UInt8)) (r : Rule K T UInt8 Int) (hp : Follows p r) :
    ∃ g : Int → Int → Int, (∀ s n, Wraps t (s * n) (g s n)) ∧
      Follows (fun q => Ascii.signed v t.num (p q))
        (.bind (.alt (.map (.one fun c => decide (c = 45 ∨ c = 43)) fun c => if c = 43 then 1 else -1) (.ret 1))
          fun s => .map r (g s)) := by
  have h : (fun c : UInt8 => decide (c = 45 ∨ c = 43)) = fun c => c == 45 || c == 43 := by
    funext c
    rw [Bool.decide_or]
    rfl
  have key : ∀ z, ∃ x, t.norm z = .ok x ∧ Wraps t z x :=
    Ascii.norm_wraps hc fun hs => by rw [HoldsU8, hs, if_pos rfl] at ht; omega
  refine ⟨fun s n => (key (s * n)).choose, fun s n => (key (s * n)).choose_spec.2, ?_⟩
  rw [h]
  have e : (fun c : UInt8 => (if c = 43 then 1 else -1 : Int)) = fun s => t.num.fromI8 (if s == 43 then 1 else -1) := by
    funext c
    by_cases h : c = 43 <;> simp [h] <;> rfl
  rw [e]
  refine .bind (.option _ (.map _ (.satisfy v _))) fun sign => .mapM (fun num => M.lift (t.num.mul sign num)) _ ?_ hp
  · intro n w
    exact ⟨w, by rw [show t.num.mul sign n = t.norm (sign * n) from rfl, (key (sign * n)).choose_spec.1]; rfl⟩

/-- Every grammar can be written with the library. -/
theorem C103_expressible (G : ∀ k, Rule K T I (T k)) :
    ∃ F : Fns σ I T (fun _ => Error I) → Fns σ I T (fun _ => Error I),
      (∀ a k, Body a (fun q => F q k)) ∧ ∀ p, Means F p → ∀ k b w,
        (∀ t y, (∃ w', p k ⟨.endOfInput, b⟩ w = .ok (.data ⟨.endOfInput, y⟩ t, w')) ↔
          Gives G (.call k) b (some (t, y))) ∧
        (((∃ r e w', p k ⟨.endOfInput, b⟩ w = .ok (.error r e, w')) ∨
          ∃ n w', p k ⟨.endOfInput, b⟩ w = .ok (.incomplete n, w')) ↔ Gives G (.call k) b none) := by
  have key := fun k => Rules.expressible (σ := σ) (G k)
  refine ⟨fun q k => (key k).choose q, fun a k => (key k).choose_spec.1 a, ?_⟩
  intro p hp k b w
  have h := Rules.solution_acc (fun N hd he q hq k => (key k).choose_spec.2 N hd he q hq) hp k
  have hd := Rules.gives_det G (.call k)
  refine ⟨fun t y => ⟨fun ⟨_, h'⟩ => (h.of_data h').2, fun h' => h.data hd h' w⟩, ?_, fun h' => h.fail hd h' w⟩
  rintro (⟨_, _, _, h'⟩ | ⟨_, _, h'⟩)
  · exact h.of_error h'
  · exact h.of_incomplete h'

/-! ### Streams -/

section Streams

variable {S B : Type} [DataSource S I] [HonestSource S I] [Buffer B I] [LawfulBuffer B I]

/-- The functions return, if they are guarded as in C91. -/
theorem C103_returns (G : ∀ k, Rule K T I (T k)) (F : Fns σ I T E → Fns σ I T E)
    (hF : ∀ k, Follows (fun q => F q k) (G k)) (p : Fns σ I T E) (hp : Means F p) (u : K → Bool) (rk : K → Nat)
    (hg : ∀ k, Guarded u rk (some (rk k)) (u k) (fun q => F q k)) (k : K) (b : List I) (w : σ) :
    ∃ r w', p k ⟨.endOfInput, b⟩ w = .ok (r, w') := by
  have h := C103_safe G F hF p hp _ _ (.call k) b w
  have h' := C91_returns u rk F hg p (C90_equation F (fun k => Rules.follows_body (hF k)) p hp) k ⟨.endOfInput, b⟩ w
  match hr : p k ⟨.endOfInput, b⟩ w with
  | .ok (r, w') => exact ⟨r, w', rfl⟩
  | .panic => exact absurd hr h.1
  | .ub => exact absurd hr h.2
  | .div => exact absurd hr h'

/-- The retry loop returns. It returns the value which the rule gives on the data, and what is then ahead is what
the rule leaves; or, if the rule fails, what the parser has to complain about. -/
theorem C103_retry {rem : S → List I} {errs : S → Nat} (hd : Delivers S rem errs) (chk : Bool)
    (G : ∀ k, Rule K T I (T k)) (F : Fns Unit I T E → Fns Unit I T E)
    (hF : ∀ k, Follows (fun q => F q k) (G k)) {N : Nat}
    (hB : ∀ k, Body ⟨false, true, some N⟩ (fun q => F q k)) (p : Fns Unit I T E) (hp : Means F p)
    (u : K → Bool) (rk : K → Nat) (hg : ∀ k, Guarded u rk (some (rk k)) (u k) (fun q => F q k)) (k : K)
    (s : Source S B) (h : Ready rem s) (hne : ahead rem s ≠ [])
    (hc : LawfulBuffer.CanHold s.buffer ((ahead rem s).length + max 1 N))
    (hu : (ahead rem s).length + max 1 N ≤ usizeMax) :
    (∃ t s', retry chk (p k) s () = .ok ((.ok t, s'), ()) ∧ Continues rem s s' ∧
      Gives G (.call k) (ahead rem s) (some (t, ahead rem s'))) ∨
    (∃ r s', retry chk (p k) s () = .ok ((.error r, s'), ()) ∧ Continues rem s s' ∧
      ((∃ b e, r = .parseError b e) ∨ ∃ n, r = .incomplete n) ∧ Gives G (.call k) (ahead rem s) none) := by
  have hb := C90_assembled F hB p hp k
  have ha := C51_retry hd chk (hb.streamed rfl) s h hne (C51_fits hb _ _ hc hu)
  obtain ⟨r, w', hr⟩ := C103_returns G F hF p hp u rk hg k (ahead rem s) ()
  rw [hr] at ha
  cases r with
  | data i t =>
    obtain ⟨s', h1, h2, h3⟩ := ha
    obtain ⟨hm, _⟩ := C05_remainder hb.anything _ _ _ _ _ hr
    have he : i = ⟨.endOfInput, ahead rem s'⟩ := by cases i; cases hm; rw [h2]
    rw [he] at hr
    exact .inl ⟨t, s', h1, h3, (C103_success G F hF p hp _ _ (.call k) _ _ _ ()).mp ⟨_, hr⟩⟩
  | error b e =>
    obtain ⟨s', h1, h2, h3⟩ := ha
    exact .inr ⟨_, s', h1, h3, .inl ⟨_, _, rfl⟩,
      (C103_failure G F hF p hp _ _ (.call k) _ ()).mp (.inl ⟨_, _, _, hr⟩)⟩
  | incomplete n =>
    obtain ⟨s', h1, h2, h3⟩ := ha
    exact .inr ⟨_, s', h1, h3, .inr ⟨_, rfl⟩,
      (C103_failure G F hF p hp _ _ (.call k) _ ()).mp (.inr ⟨_, _, hr⟩)⟩

/-- Reading values until there are no more stops, and gives the values of the repetition of the rule on the data,
if a success of the rule consumes something. -/
theorem C103_values {rem : S → List I} {errs : S → Nat} (hd : Delivers S rem errs) (chk : Bool)
    (G : ∀ k, Rule K T I (T k)) (F : Fns Unit I T E → Fns Unit I T E)
    (hF : ∀ k, Follows (fun q => F q k) (G k)) {N : Nat}
    (hB : ∀ k, Body ⟨false, true, some N⟩ (fun q => F q k)) (p : Fns Unit I T E) (hp : Means F p)
    (u : K → Bool) (rk : K → Nat) (hg : ∀ k, Guarded u rk (some (rk k)) (u k) (fun q => F q k)) (k : K)
    (hk : u k = true) (s : Source S B) (h : Ready rem s)
    (hc : LawfulBuffer.CanHold s.buffer ((ahead rem s).length + max 1 N))
    (hu : (ahead rem s).length + max 1 N ≤ usizeMax) :
    ∃ ts s' y, values chk (p k) s () = .ok ((ts, s'), ()) ∧
      Gives G (.star (.call k)) (ahead rem s) (some (ts, y)) := by
  have hb := C90_assembled F hB p hp k
  have hm : ∀ i i' t w w', p k i w = .ok (.data i' t, w') → i'.buf.length < i.buf.length := by
    intro i i' t w w' h
    have := C91_consumes u rk F hg p (C90_equation F hB p hp) k i i' t w w' h
    rw [hk] at this
    exact this
  have main : ∀ n (s : Source S B) (acc : List (T k)), (ahead rem s).length = n → Ready rem s →
      LawfulBuffer.CanHold s.buffer (n + max 1 N) → n + max 1 N ≤ usizeMax → ∃ ts s' y,
      loop (nextValue chk (p k)) (acc, s) () = .ok ((acc ++ ts, s'), ()) ∧
      Gives G (.star (.call k)) (ahead rem s) (some (ts, y)) := by
    intro n
    induction n using Nat.strongRecOn with
    | _ n ih =>
      intro s acc hl h hc hu
      have stop : (∃ r s', retry chk (p k) s () = .ok ((.error r, s'), ())) →
          Gives G (.call k) (ahead rem s) none → ∃ ts s' y,
          loop (nextValue chk (p k)) (acc, s) () = .ok ((acc ++ ts, s'), ()) ∧
          Gives G (.star (.call k)) (ahead rem s) (some (ts, y)) := by
        rintro ⟨r, s', h1⟩ h2
        refine ⟨[], s', ahead rem s, ?_, .star_stop h2⟩
        rw [loop_apply, nextValue, M.bind_apply, h1, List.append_nil]
        rfl
      by_cases he : ahead rem s = []
      · have h0 : n = 0 := by rw [← hl, he]; rfl
        rw [h0, Nat.zero_add] at hc hu
        refine stop ?_ ?_
        · have key := C67_empty hd chk (hb.streamed rfl) s h he
            (C51_fits hb _ _ (by rw [List.length_nil, Nat.zero_add]; exact hc)
              (by rw [List.length_nil, Nat.zero_add]; exact hu))
          by_cases hx : Unaware s ∧ Answers (p k)
          · have ha := key.1 hx
            have eq := C90_equation F hB p hp
            have h1 := C91_returns u rk F hg p eq k ⟨.default, []⟩ ()
            have h2 := C91_defined u rk F hg p eq k ⟨.default, []⟩ ()
            match hr : p k ⟨.default, []⟩ () with
            | .ok (.data i t, w') => exact absurd (hm _ _ _ _ _ hr) (Nat.not_lt_zero _)
            | .ok (.error b e, w') =>
              rw [hr] at ha
              obtain ⟨s', h1, _⟩ := ha
              exact ⟨_, s', h1⟩
            | .ok (.incomplete n, w') =>
              rw [hr] at ha
              obtain ⟨s', h1, _⟩ := ha
              exact ⟨_, s', h1⟩
            | .panic =>
              exact absurd hr (C06_no_panic (C90_assembled F (fun k => Rules.follows_body (hF k)) p hp k) _ _)
            | .ub => exact absurd hr h2
            | .div => exact absurd hr h1
          · obtain ⟨s', h1, h2, _⟩ := key.2 hx
            exact ⟨_, s', h1⟩
        · rw [he]
          obtain ⟨r, w', hr⟩ := C103_returns G F hF p hp u rk hg k [] ()
          cases r with
          | data i t => exact absurd (hm _ _ _ _ _ hr) (Nat.not_lt_zero _)
          | error b e => exact (C103_failure G F hF p hp _ _ (.call k) _ ()).mp (.inl ⟨_, _, _, hr⟩)
          | incomplete n => exact (C103_failure G F hF p hp _ _ (.call k) _ ()).mp (.inr ⟨_, _, hr⟩)
      · rcases C103_retry hd chk G F hF hB p hp u rk hg k s h he (by rw [hl]; exact hc)
          (by rw [hl]; exact hu) with ⟨t, s', h1, h2, h3⟩ | ⟨r, s', h1, h2, _, h4⟩
        · obtain ⟨w', h5⟩ := (C103_success G F hF p hp _ _ (.call k) _ _ _ ()).mpr h3
          have hlt : (ahead rem s').length < n := by rw [← hl]; exact hm _ _ _ _ _ h5
          obtain ⟨ts, s2, y, g1, g2⟩ := ih _ hlt s' (acc ++ [t]) rfl h2.1
            (LawfulBuffer.canHold_le (by omega) (h2.2 _ hc)) (by omega)
          refine ⟨t :: ts, s2, y, ?_, .star h3 g2⟩
          rw [loop_apply, nextValue, M.bind_apply, h1]
          rw [List.append_assoc] at g1
          exact g1
        · exact stop ⟨r, s', h1⟩ h4
  obtain ⟨ts, s', y, h1, h2⟩ := main _ s [] rfl h hc hu
  exact ⟨ts, s', y, h1, h2⟩

end Streams

/-! ### Examples -/

namespace RulesEx

/-- sums with parentheses around them -/
inductive Sum
  | digit (n : Fin 10)
  | plus (a b : Sum)

def Sum.value : Sum → Nat
  | digit n => n
  | plus a b => a.value + b.value

def char (n : Fin 10) : Char := Char.ofNat (48 + n)

def Sum.text : Sum → List Char
  | digit n => [char n]
  | plus a b => '(' :: (a.text ++ '+' :: (b.text ++ [')']))

/-- `S ← '(' S '+' S ')' / [0-9]`, with the sum as its value -/
def sums : ∀ _ : Unit, Rule Unit (fun _ => Nat) Char Nat := fun _ =>
  .alt (.bind (.one (· = '(')) fun _ => .bind (.call ()) fun m => .bind (.one (· = '+')) fun _ =>
      .bind (.call ()) fun n => .map (.one (· = ')')) fun _ => m + n)
    (.map (.one Char.isDigit) fun c => c.toNat - 48)

/-- `fn sum(i) { or(i, |i| parse!{i; token('('); let m = sum(); token('+'); let n = sum(); token(')');
ret m + n}, |i| satisfy(i, |c| c.is_digit(10)).map(|c| c as u32 - 48)) }` -/
def sumBody (q : Fns Unit Char (fun _ : Unit => Nat) (fun _ => Error Char)) :
    Fns Unit Char (fun _ : Unit => Nat) (fun _ => Error Char) := fun _ =>
  Comb.or (Parser.andThen id (Parsers.token true '(') <| Parser.bind id (q ()) fun m =>
      Parser.andThen id (Parsers.token true '+') <| Parser.bind id (q ()) fun n =>
      Parser.map (Parsers.token true ')') fun _ => m + n)
    (Parser.map (Parsers.satisfy true Char.isDigit) fun c => c.toNat - 48)

theorem sumBody_follows (k : Unit) : Follows (fun q => sumBody q k) (sums k) :=
  .or (.andThen (.token _ _) (.bind (.call ()) fun _ => .andThen (.token _ _) (.bind (.call ()) fun _ =>
    .map _ (.token _ _)))) (.map _ (.satisfy _ _))

theorem one_yes {K : Type} {V : K → Type} (G : ∀ k, Rule K V I (V k)) (f : I → Bool) (c : I) (x : List I)
    (h : f c = true) : Gives G (.one f) (c :: x) (some (c, x)) := .item (if_pos h)

theorem one_no {K : Type} {V : K → Type} (G : ∀ k, Rule K V I (V k)) (f : I → Bool) (c : I) (x : List I)
    (h : f c = false) : Gives G (.one f) (c :: x) none := .item_other (if_neg (by rw [h]; nofun))

theorem sum_gives (t : Sum) : ∀ rest, Gives sums (.call ()) (t.text ++ rest) (some (t.value, rest)) := by
  induction t with
  | digit n =>
    intro rest
    have h : ∀ n : Fin 10, decide (char n = '(') = false ∧ (char n).isDigit = true ∧ (char n).toNat - 48 = n := by
      decide
    refine .call (.alt_second (.bind_fail (one_no _ _ _ _ (h n).1)) ?_)
    exact .bind (one_yes _ _ _ _ (h n).2.1) (by
      show Gives sums (.ret ((char n).toNat - 48)) rest (some (n.val, rest))
      rw [(h n).2.2]
      exact .ret)
  | plus a b iha ihb =>
    intro rest
    have e : (Sum.plus a b).text ++ rest = '(' :: (a.text ++ ('+' :: (b.text ++ (')' :: rest)))) := by
      simp [Sum.text]
    rw [e]
    exact .call (.alt (.bind (one_yes _ _ _ _ rfl) (.bind (iha _) (.bind (one_yes _ _ _ _ rfl)
      (.bind (ihb _) (.bind (one_yes _ _ _ _ rfl) .ret))))))

/-- Every sum is read back as its value. -/
example (p : Fns Unit Char (fun _ : Unit => Nat) (fun _ => Error Char)) (hp : Means sumBody p) (t : Sum)
    (rest : List Char) : ∃ w', parseOnly (p ()) (t.text ++ rest) () = .ok (.ok t.value, w') :=
  (C103_parse_only sums sumBody sumBody_follows p hp _ _ (.call ()) _ _ ()).mpr ⟨rest, sum_gives t rest⟩

/-- a byte `n`, and `n` bytes after it -/
def record : ∀ _ : Unit, Rule Unit (fun _ => List UInt8) UInt8 (List UInt8) := fun _ =>
  .bind .any fun n => .times .any (.ret []) n.toNat

/-- `fn record(i) { parse!{i; let n = any(); take(n as usize)} }` -/
def recordBody (_ : Fns Unit UInt8 (fun _ : Unit => List UInt8) (fun _ => Error UInt8)) :
    Fns Unit UInt8 (fun _ : Unit => List UInt8) (fun _ => Error UInt8) := fun _ =>
  Parser.bind id Parsers.any fun n => Parsers.take n.toNat

theorem recordBody_follows (k : Unit) : Follows (fun q => recordBody q k) (record k) :=
  .bind .any fun _ => .take _

theorem record_streaming (k : Unit) : Body ⟨false, true, some 255⟩ (fun q => recordBody q k) :=
  .bind (.const .any) fun n => .const (.take _ fun K h => by
    cases h
    have := n.toNat_lt
    omega)

theorem record_guarded (k : Unit) :
    Guarded (fun _ => true) (fun _ => 0) (some 0) true (fun q => recordBody q k) :=
  .bind (c := true) (d := false) (.const .any) fun n =>
    .weaken (g := none) (.const (.take n.toNat)) nofun nofun

theorem any_times {K : Type} {V : K → Type} (G : ∀ k, Rule K V I (V k)) (x rest : List I) :
    Gives G (.times .any (.ret []) x.length) (x ++ rest) (some (x, rest)) := by
  induction x with
  | nil => exact .ret
  | cons c x ih => exact .bind (one_yes _ _ _ _ rfl) (.bind ih .ret)

theorem record_gives (n : UInt8) (x rest : List UInt8) (h : x.length = n.toNat) :
    Gives record (.call ()) (n :: (x ++ rest)) (some (x, rest)) :=
  .call (.bind (one_yes _ _ _ _ rfl) (h ▸ any_times _ x rest))

/-- Three records, cut in the middle of the second one, with an I/O error there -/
def pieces : Script UInt8 := ⟨[.data 1 [7, 3, 1], .err ⟨5⟩, .data 2 [3, 0]]⟩

/-- They are read with their contents. -/
example (chk : Bool) (extra : Nat → Nat)
    (p : Fns Unit UInt8 (fun _ : Unit => List UInt8) (fun _ => Error UInt8)) (hp : Means recordBody p) :
    ∃ s', values chk (p ())
        (Source.withBuffer pieces (GrowingBuffer.withLimit extra 0 : GrowingBuffer UInt8)) () =
      .ok (([[7], [1, 2, 3], []], s'), ()) := by
  have hr := C51_new Script.rem pieces (GrowingBuffer.withLimit extra 0 : GrowingBuffer UInt8)
    (GrowingBuffer.withLimit_inv _ _) ⟨rfl, by decide⟩
  have ha : ahead Script.rem (Source.withBuffer pieces (GrowingBuffer.withLimit extra 0 : GrowingBuffer UInt8)) =
    [1, 7, 3, 1, 2, 3, 0] := hr.2
  obtain ⟨ts, s', y, h1, h2⟩ := C103_values Script.delivers chk record recordBody recordBody_follows
    record_streaming p hp (fun _ => true) (fun _ => 0) record_guarded () rfl _ hr.1
    (by rw [ha]; exact ⟨rfl, by decide⟩) (by rw [ha]; decide)
  rw [ha] at h2
  have h3 : Gives record (.star (.call ())) [1, 7, 3, 1, 2, 3, 0] (some ([[7], [1, 2, 3], []], [])) :=
    .star (record_gives 1 [7] _ rfl) (.star (record_gives 3 [1, 2, 3] _ rfl) (.star (record_gives 0 [] _ rfl)
      (.star_stop (.call (.bind_fail .item_end)))))
  cases (C103_deterministic _ _ _ _ _ h2 h3).1
  exact ⟨s', h1⟩

/-- The text of a number, a colon, and as many bytes -/
def netstring (_ : Fns Unit UInt8 (fun k : Empty => nomatch k) (fun k => nomatch k)) :
    Parser Unit UInt8 (List UInt8) (Error UInt8) :=
  Parser.bind id (Ascii.decimal true (Ascii.IntTy.num ⟨64, false, false⟩)) fun n =>
    Parser.andThen id (Parsers.token true 58) (Parsers.take n.toNat)

theorem digits_star {K : Type} {V : K → Type} (G : ∀ k, Rule K V I (V k)) (f : I → Bool) (x : List I) (c : I)
    (rest : List I) (h : ∀ d ∈ x, f d = true) (hc : f c = false) :
    Gives G (.star (.one f)) (x ++ c :: rest) (some (x, c :: rest)) := by
  induction x with
  | nil => exact .star_stop (one_no _ _ _ _ hc)
  | cons d x ih =>
    exact .star (one_yes _ _ _ _ (h d (by simp))) (ih fun e he => h e (by simp [he]))

/-- It gives the bytes, whatever they are. -/
example (x rest : List UInt8) (hx : x.length < 2 ^ 64) :
    ∃ w', parseOnly (netstring nofun) (printNat x.length ++ 58 :: (x ++ rest)) () = .ok (.ok x, w') := by
  obtain ⟨g, hg, hf⟩ := C103_decimal (K := Empty) (T := fun k => nomatch k) (E := fun k => nomatch k) (σ := Unit) true
    ⟨64, false, false⟩ (by decide) rfl
  have hd : ∀ c ∈ printNat x.length, 48 ≤ c ∧ c ≤ 57 := fun c hc =>
    (Ascii.isDigit_iff c).mp (Ascii.printNat_digits _ c hc)
  have hv : g (printNat x.length) = x.length := by
    have h1 := hg _ (Ascii.printNat_ne_nil x.length) hd
    rw [Ascii.value_printNat] at h1
    refine C39_wraps_unique ⟨64, false, false⟩ (by decide) _ _ _ h1 ⟨Int.natCast_nonneg _, ?_, 0, by omega⟩
    show (x.length : Int) ≤ 2 ^ 64 - 1
    omega
  refine (C103_parse_only (fun k => nomatch k) (fun q => q) (fun k => nomatch k) nofun (fun k => nomatch k)
    netstring _ (.bind hf fun n => .andThen (.token _ _) (.take _)) _ _ ()).mpr ⟨rest, ?_⟩
  refine .bind (t := (x.length : Int)) (y := 58 :: (x ++ rest)) ?_
    (.bind (one_yes _ _ _ _ rfl) (any_times _ x rest))
  obtain ⟨c, ds, hcd⟩ := List.exists_cons_of_ne_nil (Ascii.printNat_ne_nil x.length)
  rw [hcd] at hv hd ⊢
  refine .bind (t := c :: ds) (.bind (one_yes _ _ _ _ ?_) (.bind (digits_star _ _ ds 58 _ ?_ rfl) .ret)) ?_
  · exact decide_eq_true (hd c (by simp))
  · exact fun d h => decide_eq_true (hd d (by simp [h]))
  · rw [hv]; exact .ret

/-- Whether the next byte is escaped, up to a quote which is not -/
def escape (s : Bool) (c : UInt8) : Option Bool :=
  if s then some false else if c = 34 then none else some (c = 92)

/-- A text in quotes, in which a backslash comes before each quote and each backslash -/
def quoted : List UInt8 → List UInt8
  | [] => []
  | c :: x => if c = 34 ∨ c = 92 then 92 :: c :: quoted x else c :: quoted x

/-- `skip_many(i, 3, any).then(|i| scan(i, false, escape))` -/
def quotedParser (_ : Fns Unit UInt8 (fun k : Empty => nomatch k) (fun k => nomatch k)) :
    Parser Unit UInt8 (List UInt8) (Error UInt8) :=
  Parser.andThen id (Bounded.skipMany (.exactly 3) Parsers.any) (Parsers.scan false escape)

theorem escape_gives {K : Type} {V : K → Type} (G : ∀ k, Rule K V UInt8 (V k)) (x rest : List UInt8) :
    Gives G (.scan false escape) (quoted x ++ 34 :: rest) (some ((quoted x, false), 34 :: rest)) := by
  induction x with
  | nil => exact .scan_stop rfl
  | cons c x ih =>
    unfold quoted
    by_cases h : c = 34 ∨ c = 92
    · rw [if_pos h]
      exact .scan (s' := true) rfl (.scan (s' := false) rfl ih)
    · rw [if_neg h]
      refine .scan (s' := false) ?_ ih
      simp only [not_or] at h
      simp [escape, h.1, h.2]

/-- Three bytes are skipped, and the text is found whatever it is. -/
example (a b c : UInt8) (x rest : List UInt8) :
    ∃ w', parseOnly (quotedParser nofun) (a :: b :: c :: (quoted x ++ 34 :: rest)) () =
      .ok (.ok (quoted x), w') := by
  refine (C103_parse_only (fun k => nomatch k) (fun q => q) (fun k => nomatch k) nofun (fun k => nomatch k)
    quotedParser _ (.andThen (.skipExactly 3 .any) (.scan _ _)) _ _ ()).mpr ⟨34 :: rest, ?_⟩
  exact .bind (.bind (any_times _ [a, b, c] _) .ret) (.bind (escape_gives _ x rest) .ret)

end RulesEx

end Chomp.Props
