import Verif.Model.Fmt
import Verif.Spec.Fmt

namespace Chomp.Fmt
open Spec

theorem Closes.comma (x : Text) : Closes (',' :: x) := ⟨_, _, rfl, Or.inl rfl⟩
theorem Closes.bracket (x : Text) : Closes (']' :: x) := ⟨_, _, rfl, Or.inr (Or.inl rfl)⟩
theorem Closes.paren (x : Text) : Closes (')' :: x) := ⟨_, _, rfl, Or.inr (Or.inr rfl)⟩

theorem number_inj {m n : Nat} (h : number m = number n) : m = n := by
  have := congrArg (fun l => Nat.ofDigitChars 10 l 0) h
  simpa [number, Nat.ofDigitChars_ten_toDigits] using this

/-- Two texts without a mark, each before one. -/
theorem split_mark {P : Char → Prop} : ∀ (l l' : Text) {x y : Text},
    (∀ c ∈ l, ¬ P c) → (∀ c ∈ l', ¬ P c) →
    (∃ c r, x = c :: r ∧ P c) → (∃ c r, y = c :: r ∧ P c) → l ++ x = l' ++ y → l = l' ∧ x = y
  | [], [], _, _, _, _, _, _, h => ⟨rfl, h⟩
  | [], a :: l', _, _, _, h2, ⟨c, r, hx, hc⟩, _, h => by
    subst hx
    simp only [List.nil_append, List.cons_append, List.cons.injEq] at h
    exact absurd (h.1 ▸ hc) (h2 a (by simp))
  | a :: l, [], _, _, h1, _, _, ⟨c, r, hy, hc⟩, h => by
    subst hy
    simp only [List.nil_append, List.cons_append, List.cons.injEq] at h
    exact absurd (h.1 ▸ hc) (h1 a (by simp))
  | a :: l, b :: l', _, _, h1, h2, hx, hy, h => by
    simp only [List.cons_append, List.cons.injEq] at h
    obtain ⟨rfl, h⟩ := h
    have := split_mark l l' (fun c hc => h1 c (by simp [hc])) (fun c hc => h2 c (by simp [hc])) hx hy h
    exact ⟨by rw [this.1], this.2⟩

theorem number_digit {n : Nat} {c : Char} (h : c ∈ number n) : c.isDigit = true :=
  Nat.isDigit_of_mem_toDigits (by decide) (by decide) h

theorem number_readable : Readable number where
  tells a b x y hx hy h := by
    have nd : ∀ n, ∀ c ∈ number n, ¬ (c = ',' ∨ c = ']' ∨ c = ')') := by
      intro n c hc hcc
      have := number_digit hc
      rcases hcc with rfl | rfl | rfl <;> simp [Char.isDigit] at this
    exact number_inj (split_mark (P := fun c => c = ',' ∨ c = ']' ∨ c = ')') _ _ (nd a) (nd b) hx hy h).1
  opens a := by
    cases h : number a with
    | nil => exact absurd h Nat.toDigits_ne_nil
    | cons c x =>
      refine ⟨c, x, rfl, ?_⟩
      rintro rfl
      have : ']' ∈ number a := h ▸ by simp
      have := number_digit this
      simp [Char.isDigit] at this

theorem readable_inj {d : A → Text} (hd : Readable d) {a b : A} (h : d a = d b) : a = b :=
  hd.tells a b [')'] [')'] (Closes.paren _) (Closes.paren _) (by rw [h])

theorem readable_rest {d : A → Text} (hd : Readable d) {a b : A} {x y : Text} (hx : Closes x) (hy : Closes y)
    (h : d a ++ x = d b ++ y) : a = b ∧ x = y := by
  have := hd.tells a b x y hx hy h
  subst this
  exact ⟨rfl, List.append_cancel_left h⟩

theorem items_ends {d : I → Text} (c : I) (s : List I) : ∃ x, items d (c :: s) = d c ++ x ∧ Closes x := by
  cases s with
  | nil => exact ⟨_, rfl, Closes.bracket _⟩
  | cons c' s => exact ⟨',' :: ' ' :: items d (c' :: s), by simp [items], Closes.comma _⟩

theorem ends_append {x : Text} (h : Closes x) (y : Text) : Closes (x ++ y) := by
  obtain ⟨c, r, rfl, h⟩ := h
  exact ⟨c, r ++ y, rfl, h⟩

theorem items_open {d : I → Text} (hd : Readable d) (c : I) (s : List I) (x y : Text) :
    items d (c :: s) ++ x ≠ ']' :: y := by
  intro h
  obtain ⟨z, hz, hz'⟩ := items_ends (d := d) c s
  obtain ⟨a, r, hc, ha⟩ := hd.opens c
  rw [hz, hc] at h
  simp only [List.cons_append, List.cons.injEq] at h
  exact ha h.1

theorem items_split {d : I → Text} (hd : Readable d) : ∀ (s t : List I) {x y : Text},
    items d s ++ x = items d t ++ y → s = t ∧ x = y
  | [], [], _, _, h => by simpa [items] using h
  | [], c :: t, _, _, h => absurd h.symm (items_open hd c t _ _)
  | c :: s, [], _, _, h => absurd h (items_open hd c s _ _)
  | [c], [c'], x, y, h => by
    simp only [items, List.append_assoc, List.singleton_append] at h
    obtain ⟨rfl, h2⟩ := readable_rest hd (Closes.bracket _) (Closes.bracket _) h
    exact ⟨rfl, (List.cons.inj h2).2⟩
  | [c], c' :: c'' :: t, x, y, h => by
    simp only [items, List.append_assoc, List.cons_append, List.nil_append] at h
    obtain ⟨rfl, h2⟩ := readable_rest hd (Closes.bracket _) (Closes.comma _) h
    exact absurd (List.cons.inj h2).1 (by decide)
  | c :: c' :: s, [c''], x, y, h => by
    simp only [items, List.append_assoc, List.cons_append, List.nil_append] at h
    obtain ⟨rfl, h2⟩ := readable_rest hd (Closes.comma _) (Closes.bracket _) h
    exact absurd (List.cons.inj h2).1 (by decide)
  | c :: c' :: s, b :: b' :: t, x, y, h => by
    simp only [items, List.append_assoc, List.cons_append, List.nil_append] at h
    obtain ⟨rfl, h2⟩ := readable_rest hd (Closes.comma _) (Closes.comma _) h
    obtain ⟨h, h'⟩ := items_split hd (c' :: s) (b' :: t) (List.cons.inj (List.cons.inj h2).2).2
    exact ⟨by rw [h], h'⟩

theorem slice_split {d : I → Text} (hd : Readable d) {s t : List I} {x y : Text}
    (h : slice d s ++ x = slice d t ++ y) : s = t ∧ x = y :=
  items_split hd s t (List.cons.inj h).2

theorem slice_readable {d : I → Text} (hd : Readable d) : Readable (slice d) where
  tells _ _ _ _ _ _ h := (slice_split hd h).1
  opens _ := ⟨'[', _, rfl, by decide⟩

theorem debug_readable {d : I → Text} (hd : Readable d) (ph : Text) : Readable (debug ph d) where
  tells a b x y hx hy h := by
    cases a <;> cases b <;> simp [debug] at h
    case expected.expected => rw [(readable_rest hd (Closes.paren _) (Closes.paren _) h).1]
    case unexpected.unexpected => rfl
    case string.string => rw [(slice_split hd h).1]
    case generic.generic => rfl
  opens a := by cases a <;> simp [debug]

theorem parseError_readable {d : I → Text} (hd : Readable d) {de : E → Text} (he : Readable de) :
    Readable (parseError d de) where
  tells a b x y hx hy h := by
    cases a <;> cases b <;> simp [parseError] at h
    case error.error =>
      obtain ⟨rfl, h2⟩ := slice_split hd h
      simp only [List.cons.injEq, true_and] at h2
      rw [(readable_rest he (Closes.paren _) (Closes.paren _) h2).1]
    case incomplete.incomplete => rw [(readable_rest number_readable (Closes.paren _) (Closes.paren _) h).1]
  opens a := by cases a <;> simp [parseError]

theorem streamError_readable {d : I → Text} (hd : Readable d) {de : E → Text} (he : Readable de)
    {dio : IoError → Text} (hio : Readable dio) : Readable (streamError d de dio) where
  tells a b x y hx hy h := by
    cases a <;> cases b <;> simp [streamError] at h
    case parseError.parseError =>
      obtain ⟨rfl, h2⟩ := slice_split hd h
      simp only [List.cons.injEq, true_and] at h2
      rw [(readable_rest he (Closes.paren _) (Closes.paren _) h2).1]
    case incomplete.incomplete => rw [(readable_rest number_readable (Closes.paren _) (Closes.paren _) h).1]
    case ioError.ioError => rw [(readable_rest hio (Closes.paren _) (Closes.paren _) h).1]
    case endOfInput.endOfInput => rfl
    case retry.retry => rfl
  opens a := by cases a <;> simp [streamError]

end Chomp.Fmt
