import Verif.Lemmas.Predictive
import Verif.Props.SepBy
import Verif.Props.Work

/-
C108: if the next item decides what to do, the number of calls of closures grows at most linearly with the
input. `Predictive m a L p` (Verif/Spec/Predictive.lean) is a check of the text of `p`: the alternatives of a
choice begin with different items, and after what has gone back to an item, nothing begins with this item.
-/

namespace Chomp.Props

open Spec

variable {σ I : Type} {m : σ → Nat} {a : Nat}

/-- What the text says holds for every run. -/
theorem C108_holds {L : Look I} {p : Parser σ I T E} (h : Predictive m a L p) (i : Input I) (w w' : σ)
    (r : ParseResult I T E) (e : p i w = .ok (r, w')) : AsSaid m a L i w r w' :=
  Predictive.holds h i w r w' e

/-- A run on `n` items adds at most `a * n + c` to the counter, however it ends. -/
theorem C108_linear {L : Look I} {p : Parser σ I T E} (h : Predictive m a L p) {c : Nat} (h1 : L.out ≤ c)
    (h2 : L.done ≤ c) (h3 : L.fail ≤ c) (i : Input I) (w w' : σ) (r : ParseResult I T E)
    (e : p i w = .ok (r, w')) : m w' ≤ m w + (a * i.buf.length + c) := by
  rw [← Nat.add_assoc]
  exact Predictive.AsSaid.cost (C108_holds h i w w' r e) h1 h2 h3

/-- So it is bounded in the sense of C104, and with it what `parse_only` and a stream add. -/
theorem C108_work {L : Look I} {p : Parser σ I T E} (h : Predictive m a L p) {c : Nat} (h1 : L.out ≤ c)
    (h2 : L.done ≤ c) (h3 : L.fail ≤ c) : Work m (fun n => a * n + c) p :=
  .known (Predictive.built h) (fun _ _ hk => Nat.add_le_add_right (Nat.mul_le_mul_left _ hk) _)
    fun i w r w' e => C108_linear h h1 h2 h3 i w w' r e

/-- A success which did not go back adds in proportion to what it consumed, however long the input is. -/
theorem C108_success {L : Look I} {p : Parser σ I T E} (h : Predictive m a L p) (hs : ∀ x, ¬ L.stop x) {d : Int}
    (h1 : L.empty = true → L.out ≤ d) (h2 : L.done ≤ d) (i j : Input I) (w w' : σ) (t : T)
    (e : p i w = .ok (.data j t, w')) : (m w' : Int) ≤ m w + a * (i.buf.length - j.buf.length : Nat) + d := by
  have hw := C108_holds h i w w' _ e
  by_cases hb : Begins L.first i.buf
  · obtain ⟨hl, hc⟩ := (hw.2 hb).1 j t rfl
    have hle : j.buf.length ≤ i.buf.length := by omega
    rcases hc with hc | ⟨⟨x, _, _, hx⟩, _⟩
    · rw [Int.ofNat_sub hle, Int.mul_sub]
      omega
    · exact absurd hx (hs x)
  · obtain ⟨h3, h4⟩ := hw.1 hb
    obtain ⟨he, hj⟩ := h4 j t rfl
    have := h1 he
    rw [hj, Nat.sub_self]
    simp only [Int.natCast_zero, Int.mul_zero]
    omega

/-- Functions which call themselves or each other: if what is said of the calls gives the same for the bodies,
it holds. -/
theorem C108_recursive {K : Type} {T E : K → Type} (F : Fns σ I T E → Fns σ I T E)
    (hF : ∀ k, Body everything (fun q => F q k)) (L : K → Look I)
    (h : ∀ q, (∀ k, Predictive m a (L k) (q k)) → ∀ k, Predictive m a (L k) (F q k)) (p : Fns σ I T E)
    (hp : Means F p) (k : K) : Predictive m a (L k) (p k) := by
  have hn : ∀ j k, Predictive m a (L k) (nested F j k) := by
    intro j
    induction j with
    | zero => exact fun k => .known (Recursive.nested_built hF 0 k) nofun
    | succ j ih => exact h _ ih
  refine .known (C90_assembled F hF p hp k) fun i w r w' e => ?_
  obtain ⟨j, hj⟩ := (hp k i w (.ok (r, w')) nofun).mp e
  exact C108_holds (hn j k) i w w' r hj

theorem square_lt (n : Nat) : n * n + n + 1 < 2 ^ (n + 1) := by
  induction n with
  | zero => decide
  | succ n ih =>
    have h : n ≤ n * n := Nat.le_mul_self n
    rw [Nat.pow_succ]
    have e : (n + 1) * (n + 1) = n * n + n + n + 1 := by rw [Nat.succ_mul, Nat.mul_succ]; omega
    omega

/-- That the next item decides is needed: nothing can be said of `s = a s b or a s c or nothing`, whose
alternatives begin with the same item. -/
theorem C108_needed (v : Bool) {p} (hp : Means (backtracking v) p) (a : Nat) (L : Look Char) :
    ¬ Predictive (fun n => n) a L (p ()) := by
  intro h
  obtain ⟨c, hc⟩ : ∃ c : Nat, L.out ≤ c ∧ L.done ≤ c ∧ L.fail ≤ c :=
    ⟨L.out + L.done.toNat + L.fail.toNat, by omega, by omega, by omega⟩
  have h1 := C108_linear h hc.1 hc.2.1 hc.2.2 _ 0 _ _ (C104_exponential v hp (a + c) 0)
  simp only [List.length_replicate] at h1
  have h2 := square_lt (a + c)
  have h3 : a * (a + c) ≤ (a + c) * (a + c) := Nat.mul_le_mul_right _ (by omega)
  omega

/-! ### Nested lists -/

theorem lists_body (v : Bool) (k : Unit) : Body everything (fun q => lists v q k) :=
  .effect nofun fun _ => .or (.const (.map _ (.token v 'x')))
    (.andThen (.const (.token v '[')) (.andThen (.sepBy id _ (.call ()) (.const (.token v ',')))
      (.const (.map _ (.token v ']')))))

namespace Lists

/-- a list -/
def V : Look Char := ⟨fun c => c = 'x' ∨ c = '[', fun _ => False, false, 1, 0, 1⟩
/-- a comma and a list -/
def Q : Look Char := ⟨fun c => c = ',', fun _ => False, false, 0, -1, 0⟩
/-- more lists -/
def R : Look Char := ⟨fun c => c = ',', fun c => c = ',', true, 0, -1, 0⟩
/-- one or more lists -/
def X : Look Char := ⟨V.first, fun c => c = ',', false, 1, 0, 1⟩
/-- lists -/
def Y : Look Char := ⟨V.first, fun c => c = ',' ∨ V.first c, true, 1, 0, 1⟩
/-- up to the end of the list -/
def Z : Look Char := ⟨fun c => V.first c ∨ c = ']', fun _ => False, false, 1, 0, 1⟩
/-- in brackets -/
def B : Look Char := ⟨fun c => c = '[', fun _ => False, false, 0, -1, 0⟩
/-- after the call -/
def W : Look Char := ⟨V.first, fun _ => False, false, 0, -1, 0⟩

theorem body (v : Bool) (q : Fns Nat Char (fun _ : Unit => Unit) (fun _ => Error Char))
    (hq : ∀ k, Predictive (fun n => n) 1 V (q k)) (k : Unit) : Predictive (fun n => n) 1 V (lists v q k) := by
  have hY : Predictive (fun n => n) 1 Y (Comb.sepBy id (Collect.vec Unit) (q ()) (Parsers.token v ',')) := by
    refine .sepBy (Q := Q) (R := R) (X := X) id ?_ ?_ ?_ ?_ (hq ()) (.token v ',')
    · constructor <;> simp [leaf, V, Q]
    · constructor <;> simp [Q, R]
    · constructor <;> simp [V, R, X]
    · constructor <;> simp [X, Y, nothing, leaf]
      exact fun c h => .inr h
  have hZ : Predictive (fun n => n) 1 Z (Parser.andThen id (Comb.sepBy id (Collect.vec Unit) (q ()) (Parsers.token v ','))
      (Parser.map (Parsers.token v ']') fun _ => ())) := by
    refine .andThen (Q := leaf (fun c => c = ']') false 0 (-1) (-1)) ?_ hY (.map _ (.token v ']'))
    constructor <;> simp [Y, Z, leaf, V]
  have hB : Predictive (fun n => n) 1 B (Parser.andThen id (Parsers.token v '[')
      (Parser.andThen id (Comb.sepBy id (Collect.vec Unit) (q ()) (Parsers.token v ','))
        (Parser.map (Parsers.token v ']') fun _ => ()))) := by
    refine .andThen (P := leaf (fun c => c = '[') false 0 (-1) (-1)) ?_ (.token v '[') hZ
    constructor <;> simp [Z, B, leaf]
  refine .effect (P := W) tick_counted fun _ => ?_
  refine .or (P := leaf (fun c => c = 'x') false 0 (-1) (-1)) ?_ (.map _ (.token v 'x')) hB
  constructor <;> simp [W, B, V, leaf]

end Lists

/-- For `v = x or [ v , v , ... ]` what is said is checked once, for the text of the body. -/
theorem C108_lists (v : Bool) {p} (hp : Means (lists v) p) : Predictive (fun n => n) 1 Lists.V (p ()) :=
  C108_recursive (lists v) (lists_body v) (fun _ => Lists.V) (Lists.body v) p hp ()

/-- So there are at most `n + 1` calls on `n` items, well formed or not ... -/
theorem C108_lists_linear (v : Bool) {p} (hp : Means (lists v) p) (i : Input Char) (w w' : Nat)
    (r : ParseResult Char Unit (Error Char)) (e : p () i w = .ok (r, w')) : w' ≤ w + (i.buf.length + 1) := by
  have := C108_linear (C108_lists v hp) (c := 1) (by simp [Lists.V]) (by simp [Lists.V]) (by simp [Lists.V]) i w w' r e
  simpa using this

/-- ... and as many on `n` brackets. -/
theorem C108_lists_attained (v : Bool) {p} (hp : Means (lists v) p) (n w : Nat) :
    ∃ r, p () ⟨.endOfInput, List.replicate n '['⟩ w = .ok (r, w + (n + 1)) ∧ ∀ j t, r ≠ .data j t := by
  have heq : ∀ x w, p () ⟨.endOfInput, x⟩ w = Comb.or (Parser.map (Parsers.token v 'x') fun _ => ())
      (Parser.andThen id (Parsers.token v '[')
        (Parser.andThen id (Comb.sepBy id (Collect.vec Unit) (p ()) (Parsers.token v ','))
          (Parser.map (Parsers.token v ']') fun _ => ()))) ⟨.endOfInput, x⟩ (w + 1) := fun x w =>
    congrFun (congrFun (C90_equation (lists v) (lists_body v) p hp ()) _) w
  induction n generalizing w with
  | zero =>
    rw [heq]
    obtain ⟨r, h1, h2⟩ := last_none v (c := 'x') (y := List.replicate 0 '[') nofun (w + 1)
    rw [Work.or_fails h1 h2]
    rcases Work.token_cases (σ := Nat) v '[' (List.replicate 0 '[') with ⟨z, hz, _⟩ | ⟨_, r, h1, h2⟩
    · cases hz
    · exact Work.then_fails (h1 (w + 1)) h2 _ _
  | succ n ih =>
    rw [heq]
    obtain ⟨r, h1, h2⟩ := last_none v (c := 'x') (y := List.replicate (n + 1) '[')
      (fun u h => by simp [List.replicate_succ] at h) (w + 1)
    rw [Work.or_fails h1 h2]
    rcases Work.token_cases (σ := Nat) v '[' (List.replicate (n + 1) '[') with ⟨z, hz, h⟩ | ⟨h, _⟩
    · rw [List.replicate_succ] at hz
      cases hz
      rw [Work.then_data (h (w + 1))]
      obtain ⟨r, h3, h4⟩ := ih (w + 1)
      have hs : Comb.sepBy id (Collect.vec Unit) (p ()) (Parsers.token v ',') ⟨.endOfInput, List.replicate n '['⟩ (w + 1) =
          .ok (.data ⟨.endOfInput, List.replicate n '['⟩ [], w + 1 + (n + 1)) := by
        refine (C31_sep_by _ _ _ _ _ (.ok _) nofun).mpr ?_
        cases r with
        | data j t => exact absurd rfl (h4 j t)
        | error b e => exact .stop_error .nil h3 (Nat.zero_le _)
        | incomplete k => exact .stop_last .nil h3 (Nat.zero_le _) rfl
      rw [Work.then_data hs]
      obtain ⟨r, h5, h6⟩ := last_none v (c := ']') (y := List.replicate n '[')
        (fun u h => by cases n <;> simp [List.replicate_succ] at h) (w + 1 + (n + 1))
      refine ⟨r, ?_, h6⟩
      rw [h5]
      congr 2
      omega
    · exact absurd List.replicate_succ (h _)

namespace PredictiveExample

open WorkExample

/-- a number -/
def N : Look Char := leaf (fun c => c.isDigit = true) false 1 1 0
/-- a comma and a number -/
def Q : Look Char := leaf (fun c => c = ',') false 0 0 0
/-- more numbers -/
def R : Look Char := ⟨fun c => c = ',', fun c => c = ',', true, 0, 0, 0⟩
/-- one or more numbers -/
def X : Look Char := ⟨fun c => c.isDigit = true, fun c => c = ',', false, 1, 1, 1⟩
/-- numbers -/
def Y : Look Char := ⟨fun c => c.isDigit = true, fun c => c = ',' ∨ c.isDigit = true, true, 1, 1, 1⟩

/-- The same parser as in the examples of C104. -/
theorem numbers_predictive (v : Bool) : Predictive (fun n => n) 1 Y (numbers v) := by
  have hN : Predictive (fun n => n) 1 N (Closures.takeWhile1 v digit) :=
    .takeWhile1M v digit (fun c => c.isDigit = true) digit_counted (fun c w w' e => by
      have := Res.ok.inj e
      exact (Prod.mk.inj this).1) (Nat.le_refl _)
  refine .sepBy (Q := Q) (R := R) (X := X) id ?_ ?_ ?_ ?_ hN (.token v ',')
  · constructor <;> simp [leaf, N, Q]
  · constructor <;> simp [Q, R, leaf]
  · constructor <;> simp [N, R, X, leaf]
  · constructor <;> simp [X, Y, nothing, leaf]
    exact fun c h => .inr h

/-- C108_linear: the predicate is asked at most `n + 1` times. -/
example (v : Bool) (i : Input Char) (w w' : Nat) (r) (e : numbers v i w = .ok (r, w')) :
    w' ≤ w + (1 * i.buf.length + 1) :=
  C108_linear (numbers_predictive v) (by decide) (by decide) (by decide) i w w' r e

/-- C108_work: at most seven times for `12,345` in `parse_only` (48 times according to C104). -/
example (v : Bool) (r w') (h : parseOnly (numbers v) ['1', '2', ',', '3', '4', '5'] 0 = .ok (r, w')) : w' ≤ 0 + 7 :=
  C104_parse_only (C108_work (numbers_predictive v) (c := 1) (by decide) (by decide) (by decide)) _ 0 w' r h

/-- C108_needed, C108_lists, C108_lists_linear and C108_lists_attained: such functions exist. -/
example (v : Bool) : ∃ p q, Means (backtracking v) p ∧ Means (lists v) q ∧
    ∃ r, q () ⟨.endOfInput, List.replicate 10 '['⟩ 0 = .ok (r, 0 + 11) ∧ ∀ j t, r ≠ .data j t := by
  obtain ⟨p, hp, _⟩ := C90_exists (backtracking v) (backtracking_body v)
  obtain ⟨q, hq, _⟩ := C90_exists (lists v) (lists_body v)
  exact ⟨p, q, hp, hq, C108_lists_attained v hq 10 0⟩

/-- C108_success: to read a list, there are at most as many calls as it has characters, whatever follows. -/
example (v : Bool) {p} (hp : Means (lists v) p) (i j : Input Char) (w w' : Nat) (e : p () i w = .ok (.data j (), w')) :
    (w' : Int) ≤ w + (i.buf.length - j.buf.length : Nat) + 0 := by
  simpa using C108_success (C108_lists v hp) (d := 0) (fun _ h => h) nofun (by decide) i j w w' () e

/-- `many_till(|i| { tick(); not_token(") }, token("))` -/
def quoted (v : Bool) : Parser Nat Char (List Char) (Error Char) :=
  Comb.manyTill (Collect.vec Char) (Parser.effect tick fun _ => Parsers.notToken v '"') (Parsers.token v '"')

/-- a character and the end of the string -/
def S : Look Char := ⟨fun c => c ≠ '"', fun _ => False, false, 1, -1, 1⟩
/-- the end of a string -/
def L : Look Char := ⟨fun _ => True, fun _ => False, false, 1, -1, 1⟩

/-- C108_success, with `many_till`: less calls than there are characters. -/
example (v : Bool) (i j : Input Char) (w w' : Nat) (t) (e : quoted v i w = .ok (.data j t, w')) :
    (w' : Int) ≤ w + (i.buf.length - j.buf.length : Nat) + -1 := by
  have h : Predictive (fun n => n) 1 L (quoted v) := by
    refine .manyTill (S := S) rfl ?_ ?_ (.effect tick_counted fun _ => .notToken v '"') (.token v '"')
    · constructor <;> simp [leaf, Look.call, S, L]
    · constructor <;> simp [leaf, S, L, Classical.em]
  simpa using C108_success h (d := -1) (fun _ h => h) nofun (by decide) i j w w' t e

end PredictiveExample

end Chomp.Props
