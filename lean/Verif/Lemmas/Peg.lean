import Verif.Spec.Peg
import Verif.Lemmas.Guarded
import Verif.Props.Built
import Verif.Props.Parsers
import Verif.Props.Productive
import Verif.Props.Choice
import Verif.Props.Repeat
import Verif.Props.SepBy
import Verif.Props.Till
import Verif.Props.Unroll

/-
Lemmas on parsing expression grammars. `Sem N e` is the meaning of `e` as a relation between inputs and
outcomes, if the meaning of the nonterminals is `N`.
-/

namespace Chomp.Peg

open Spec Spec.Peg

/-- Relations between inputs and outcomes. -/
abbrev Rel (I : Type) : Type := List I → Option (List I) → Prop

def SeqR (R S : Rel I) : Rel I := fun x o => (∃ y, R x (some y) ∧ S y o) ∨ R x none ∧ o = none

def AltR (R S : Rel I) : Rel I := fun x o => (∃ y, R x (some y) ∧ o = some y) ∨ R x none ∧ S x o

def NotR (R : Rel I) : Rel I := fun x o => (∃ y, R x (some y) ∧ o = none) ∨ R x none ∧ o = some x

def EmptyR : Rel I := fun x o => o = some x

def ItemR (f : I → Bool) : Rel I
  | [], o => o = none
  | c :: x, o => o = if f c then some x else none

/-- `R` succeeds `n` times. -/
inductive Iter (R : Rel I) : Nat → List I → List I → Prop
  | zero : Iter R 0 x x
  | succ : R x (some y) → Iter R n y z → Iter R (n + 1) x z

def StarR (R : Rel I) : Rel I := fun x o => ∃ n y, Iter R n x y ∧ R y none ∧ o = some y

def Sem (N : K → Rel I) : Peg K I → Rel I
  | .empty => EmptyR
  | .item f => ItemR f
  | .call k => N k
  | .seq a b => SeqR (Sem N a) (Sem N b)
  | .alt a b => AltR (Sem N a) (Sem N b)
  | .star a => StarR (Sem N a)
  | .not a => NotR (Sem N a)

/-- There is at most one outcome. -/
def Det (R : Rel I) : Prop := ∀ x o o', R x o → R x o' → o = o'

/-- What is left is an end of the input. -/
def Ends (R : Rel I) : Prop := ∀ x y, R x (some y) → ∃ z, x = z ++ y

theorem det_seq {R S : Rel I} (hR : Det R) (hS : Det S) : Det (SeqR R S) := by
  rintro x o o' (⟨y, h1, h2⟩ | ⟨h1, rfl⟩) (⟨y', h1', h2'⟩ | ⟨h1', rfl⟩)
  · cases hR _ _ _ h1 h1'; exact hS _ _ _ h2 h2'
  · cases hR _ _ _ h1 h1'
  · cases hR _ _ _ h1 h1'
  · rfl

theorem det_alt {R S : Rel I} (hR : Det R) (hS : Det S) : Det (AltR R S) := by
  rintro x o o' (⟨y, h1, rfl⟩ | ⟨h1, h2⟩) (⟨y', h1', rfl⟩ | ⟨h1', h2'⟩)
  · cases hR _ _ _ h1 h1'; rfl
  · cases hR _ _ _ h1 h1'
  · cases hR _ _ _ h1 h1'
  · exact hS _ _ _ h2 h2'

theorem det_not {R : Rel I} (hR : Det R) : Det (NotR R) := by
  rintro x o o' (⟨y, h1, rfl⟩ | ⟨h1, rfl⟩) (⟨y', h1', rfl⟩ | ⟨h1', rfl⟩)
  · rfl
  · cases hR _ _ _ h1 h1'
  · cases hR _ _ _ h1 h1'
  · rfl

theorem det_star {R : Rel I} (hR : Det R) : Det (StarR R) := by
  rintro x o o' ⟨n, y, h1, h2, rfl⟩ ⟨n', y', h1', h2', rfl⟩
  induction h1 generalizing n' with
  | zero =>
    cases h1' with
    | zero => rfl
    | succ h _ => cases hR _ _ _ h2 h
  | succ h _ ih =>
    cases h1' with
    | zero => cases hR _ _ _ h h2'
    | succ h' h1' => cases hR _ _ _ h h'; exact ih h2 _ h1'

theorem det_sem {N : K → Rel I} (hN : ∀ k, Det (N k)) (e : Peg K I) : Det (Sem N e) := by
  induction e with
  | empty => rintro x o o' h h'; exact h.trans h'.symm
  | item f =>
    rintro x o o' h h'
    cases x with
    | nil => exact Eq.trans h (Eq.symm h')
    | cons c x => exact Eq.trans h (Eq.symm h')
  | call k => exact hN k
  | seq a b iha ihb => exact det_seq iha ihb
  | alt a b iha ihb => exact det_alt iha ihb
  | star a ih => exact det_star ih
  | not a ih => exact det_not ih

theorem Iter.snoc {R : Rel I} {n : Nat} {x y z : List I} (h : Iter R n x y) (hz : R y (some z)) :
    Iter R (n + 1) x z := by
  induction h with
  | zero => exact .succ hz .zero
  | succ h _ ih => exact .succ h (ih hz)

theorem Iter.split {R : Rel I} {n : Nat} : ∀ {m : Nat} {x z : List I}, Iter R (m + n) x z →
    ∃ y, Iter R m x y ∧ Iter R n y z := by
  intro m
  induction m with
  | zero => intro x z h; rw [Nat.zero_add] at h; exact ⟨x, .zero, h⟩
  | succ m ih =>
    intro x z h
    rw [show m + 1 + n = m + n + 1 by omega] at h
    cases h with
    | succ h h' =>
      obtain ⟨y, h1, h2⟩ := ih h'
      exact ⟨y, .succ h h1, h2⟩

theorem Iter.append {R : Rel I} {m n : Nat} {x y z : List I} (h : Iter R m x y) (h' : Iter R n y z) :
    Iter R (m + n) x z := by
  induction h with
  | zero => rw [Nat.zero_add]; exact h'
  | succ h _ ih => rw [show ∀ k, k + 1 + n = k + n + 1 by omega]; exact .succ h (ih h')

theorem Iter.ends {R : Rel I} (hR : Ends R) {n : Nat} {x y : List I} (h : Iter R n x y) :
    ∃ z, x = z ++ y := by
  induction h with
  | zero => exact ⟨[], rfl⟩
  | succ h _ ih =>
    obtain ⟨z, rfl⟩ := ih
    obtain ⟨z', rfl⟩ := hR _ _ h
    exact ⟨z' ++ z, (List.append_assoc ..).symm⟩

theorem ends_sem {N : K → Rel I} (hN : ∀ k, Ends (N k)) (e : Peg K I) : Ends (Sem N e) := by
  induction e with
  | empty => rintro x y h; cases h; exact ⟨[], rfl⟩
  | item f =>
    rintro x y h
    cases x with
    | nil => cases h
    | cons c x =>
      change some y = if f c then some x else none at h
      split at h
      · cases h; exact ⟨[c], rfl⟩
      · cases h
  | call k => exact hN k
  | seq a b iha ihb =>
    rintro x y (⟨z, h1, h2⟩ | ⟨_, h⟩)
    · obtain ⟨z1, rfl⟩ := iha _ _ h1
      obtain ⟨z2, rfl⟩ := ihb _ _ h2
      exact ⟨z1 ++ z2, (List.append_assoc ..).symm⟩
    · cases h
  | alt a b iha ihb =>
    rintro x y (⟨z, h1, h2⟩ | ⟨_, h⟩)
    · cases h2; exact iha _ _ h1
    · exact ihb _ _ h
  | star a ih =>
    rintro x y ⟨n, z, h, _, h2⟩
    cases h2
    exact h.ends ih
  | not a ih =>
    rintro x y (⟨z, h1, h2⟩ | ⟨_, h⟩)
    · cases h2
    · cases h; exact ⟨[], rfl⟩

/-- The outcomes which need at most `n` nested nonterminals. -/
def upto (G : K → Peg K I) : Nat → K → Rel I
  | 0 => fun _ _ _ => False
  | n + 1 => fun k => Sem (upto G n) (G k)

theorem sem_mono {N N' : K → Rel I} (h : ∀ k x o, N k x o → N' k x o) (e : Peg K I) :
    ∀ x o, Sem N e x o → Sem N' e x o := by
  induction e with
  | empty => exact fun _ _ h => h
  | item f => exact fun _ _ h => h
  | call k => exact h k
  | seq a b iha ihb =>
    rintro x o (⟨y, h1, h2⟩ | ⟨h1, h2⟩)
    · exact .inl ⟨y, iha _ _ h1, ihb _ _ h2⟩
    · exact .inr ⟨iha _ _ h1, h2⟩
  | alt a b iha ihb =>
    rintro x o (⟨y, h1, h2⟩ | ⟨h1, h2⟩)
    · exact .inl ⟨y, iha _ _ h1, h2⟩
    · exact .inr ⟨iha _ _ h1, ihb _ _ h2⟩
  | star a ih =>
    rintro x o ⟨n, y, h1, h2, h3⟩
    refine ⟨n, y, ?_, ih _ _ h2, h3⟩
    clear h2 h3
    induction h1 with
    | zero => exact .zero
    | succ h _ ih' => exact .succ (ih _ _ h) ih'
  | not a ih =>
    rintro x o (⟨y, h1, h2⟩ | ⟨h1, h2⟩)
    · exact .inl ⟨y, ih _ _ h1, h2⟩
    · exact .inr ⟨ih _ _ h1, h2⟩

theorem upto_mono (G : K → Peg K I) {m n : Nat} (h : m ≤ n) : ∀ k x o, upto G m k x o → upto G n k x o := by
  induction m generalizing n with
  | zero => exact fun _ _ _ h => h.elim
  | succ m ih =>
    cases n with
    | zero => omega
    | succ n => exact fun k => sem_mono (ih (by omega)) (G k)

theorem sem_matches {G : K → Peg K I} {N : K → Rel I} (hN : ∀ k x o, N k x o → Matches G (.call k) x o)
    (e : Peg K I) : ∀ x o, Sem N e x o → Matches G e x o := by
  induction e with
  | empty => intro x o h; cases h; exact .empty
  | item f =>
    intro x o h
    cases x with
    | nil => cases h; exact .item_end
    | cons c x =>
      change o = if f c then some x else none at h
      split at h
      · rename_i hc; cases h; exact .item hc
      · rename_i hc; cases h; exact .item_other (Bool.eq_false_iff.mpr hc)
  | call k => exact hN k
  | seq a b iha ihb =>
    rintro x o (⟨y, h1, h2⟩ | ⟨h1, rfl⟩)
    · exact .seq (iha _ _ h1) (ihb _ _ h2)
    · exact .seq_fail (iha _ _ h1)
  | alt a b iha ihb =>
    rintro x o (⟨y, h1, rfl⟩ | ⟨h1, h2⟩)
    · exact .alt (iha _ _ h1)
    · exact .alt_second (iha _ _ h1) (ihb _ _ h2)
  | star a ih =>
    rintro x o ⟨n, y, h1, h2, rfl⟩
    induction h1 with
    | zero => exact .star_stop (ih _ _ h2)
    | succ h _ ih' => exact .star (ih _ _ h) (ih' h2)
  | not a ih =>
    rintro x o (⟨y, h1, rfl⟩ | ⟨h1, rfl⟩)
    · exact .not (ih _ _ h1)
    · exact .not_fail (ih _ _ h1)

theorem matches_iff {G : K → Peg K I} {e : Peg K I} {x : List I} {o : Option (List I)} :
    Matches G e x o ↔ ∃ n, Sem (upto G n) e x o := by
  constructor
  · intro h
    induction h with
    | empty => exact ⟨0, rfl⟩
    | item h => exact ⟨0, by show _ = _; rw [h]; rfl⟩
    | item_other h => exact ⟨0, by show _ = _; rw [h]; rfl⟩
    | item_end => exact ⟨0, rfl⟩
    | call _ ih =>
      obtain ⟨n, h⟩ := ih
      exact ⟨n + 1, h⟩
    | seq _ _ ih1 ih2 =>
      obtain ⟨m, h1⟩ := ih1
      obtain ⟨n, h2⟩ := ih2
      exact ⟨max m n, .inl ⟨_, sem_mono (upto_mono G (Nat.le_max_left ..)) _ _ _ h1,
        sem_mono (upto_mono G (Nat.le_max_right ..)) _ _ _ h2⟩⟩
    | seq_fail _ ih =>
      obtain ⟨n, h⟩ := ih
      exact ⟨n, .inr ⟨h, rfl⟩⟩
    | alt _ ih =>
      obtain ⟨n, h⟩ := ih
      exact ⟨n, .inl ⟨_, h, rfl⟩⟩
    | alt_second _ _ ih1 ih2 =>
      obtain ⟨m, h1⟩ := ih1
      obtain ⟨n, h2⟩ := ih2
      exact ⟨max m n, .inr ⟨sem_mono (upto_mono G (Nat.le_max_left ..)) _ _ _ h1,
        sem_mono (upto_mono G (Nat.le_max_right ..)) _ _ _ h2⟩⟩
    | star _ _ ih1 ih2 =>
      obtain ⟨m, h1⟩ := ih1
      obtain ⟨n, h2⟩ := ih2
      have h1 := sem_mono (upto_mono G (Nat.le_max_left m n)) _ _ _ h1
      obtain ⟨k, y, h3, h4, h5⟩ := sem_mono (upto_mono G (Nat.le_max_right m n)) _ _ _ h2
      exact ⟨max m n, k + 1, y, .succ h1 h3, h4, h5⟩
    | star_stop _ ih =>
      obtain ⟨n, h⟩ := ih
      exact ⟨n, 0, _, .zero, h, rfl⟩
    | not _ ih =>
      obtain ⟨n, h⟩ := ih
      exact ⟨n, .inl ⟨_, h, rfl⟩⟩
    | not_fail _ ih =>
      obtain ⟨n, h⟩ := ih
      exact ⟨n, .inr ⟨h, rfl⟩⟩
  · rintro ⟨n, h⟩
    have keyn : ∀ n k x o, upto G n k x o → Matches G (.call k) x o := by
      intro n
      induction n with
      | zero => exact fun _ _ _ h => h.elim
      | succ n ih => exact fun k x o h => .call (sem_matches ih _ _ _ h)
    exact sem_matches (keyn n) _ _ _ h

theorem upto_det (G : K → Peg K I) (n : Nat) : ∀ k, Det (upto G n k) := by
  induction n with
  | zero => exact fun _ _ _ _ h => h.elim
  | succ n ih => exact fun k => det_sem ih (G k)

theorem upto_ends (G : K → Peg K I) (n : Nat) : ∀ k, Ends (upto G n k) := by
  induction n with
  | zero => exact fun _ _ _ h => h.elim
  | succ n ih => exact fun k => ends_sem ih (G k)

/-! ### Parsers -/

/-- `r` is one of the outcomes `R`, or there is none. -/
inductive Fits (R : Option (List I) → Prop) : Res (ParseResult I T E × σ) → Prop
  | data : R (some y) → Fits R (.ok (.data ⟨.endOfInput, y⟩ t, w))
  | error : R none → Fits R (.ok (.error b e, w))
  | incomplete : R none → Fits R (.ok (.incomplete n, w))
  | div : (∀ o, ¬ R o) → Fits R .div

/-- At the end of the input, `p` does what `R` says. -/
def Acc (p : Parser σ I T E) (R : Rel I) : Prop := ∀ x w, Fits (R x) (p ⟨.endOfInput, x⟩ w)

theorem fits_congr {R S : Option (List I) → Prop} (h : ∀ o, R o ↔ S o)
    {r : Res (ParseResult I T E × σ)} (hr : Fits R r) : Fits S r := by
  cases hr with
  | data hr => exact .data ((h _).mp hr)
  | error hr => exact .error ((h _).mp hr)
  | incomplete hr => exact .incomplete ((h _).mp hr)
  | div hr => exact .div fun o ho => hr o ((h _).mpr ho)

theorem acc_congr {R S : Rel I} (h : ∀ x o, R x o ↔ S x o) {p : Parser σ I T E} (hp : Acc p R) : Acc p S :=
  fun x w => fits_congr (h x) (hp x w)

theorem fits_bind {x : M σ (ParseResult I T E)} {k : ParseResult I T E → M σ (ParseResult I U V)} {w : σ}
    {R S : Option (List I) → Prop} (h : Fits R (x w))
    (hd : ∀ y t w', R (some y) → Fits S (k (.data ⟨.endOfInput, y⟩ t) w'))
    (he : R none → ∀ b e w', Fits S (k (.error b e) w'))
    (hi : R none → ∀ n w', Fits S (k (.incomplete n) w'))
    (hdiv : (∀ o, ¬ R o) → ∀ o, ¬ S o) : Fits S ((x >>= k) w) := by
  rw [M.bind_apply]
  generalize x w = r at h
  cases h with
  | data h => exact hd _ _ _ h
  | error h => exact he h _ _ _
  | incomplete h => exact hi h _ _
  | div h => exact .div (hdiv h)

/-- From an outcome to the result. -/
theorem Acc.data {p : Parser σ I T E} {R : Rel I} (hp : Acc p R) (hR : Det R) {x y : List I}
    (h : R x (some y)) (w : σ) : ∃ t w', p ⟨.endOfInput, x⟩ w = .ok (.data ⟨.endOfInput, y⟩ t, w') := by
  have := hp x w
  generalize p ⟨.endOfInput, x⟩ w = r at this
  cases this with
  | data h' => cases hR _ _ _ h h'; exact ⟨_, _, rfl⟩
  | error h' => cases hR _ _ _ h h'
  | incomplete h' => cases hR _ _ _ h h'
  | div h' => exact absurd h (h' _)

theorem Acc.fail {p : Parser σ I T E} {R : Rel I} (hp : Acc p R) (hR : Det R) {x : List I}
    (h : R x none) (w : σ) : (∃ b e w', p ⟨.endOfInput, x⟩ w = .ok (.error b e, w')) ∨
      ∃ n w', p ⟨.endOfInput, x⟩ w = .ok (.incomplete n, w') := by
  have := hp x w
  generalize p ⟨.endOfInput, x⟩ w = r at this
  cases this with
  | data h' => cases hR _ _ _ h h'
  | error h' => exact .inl ⟨_, _, _, rfl⟩
  | incomplete h' => exact .inr ⟨_, _, rfl⟩
  | div h' => exact absurd h (h' _)

/-- From the result to an outcome. -/
theorem Acc.of_data {p : Parser σ I T E} {R : Rel I} (hp : Acc p R) {x : List I} {w w' : σ} {i : Input I}
    {t : T} (h : p ⟨.endOfInput, x⟩ w = .ok (.data i t, w')) : i.mode = .endOfInput ∧ R x (some i.buf) := by
  have := hp x w
  rw [h] at this
  cases this with
  | data h' => exact ⟨rfl, h'⟩

theorem Acc.of_error {p : Parser σ I T E} {R : Rel I} (hp : Acc p R) {x : List I} {w w' : σ} {b : List I}
    {e : E} (h : p ⟨.endOfInput, x⟩ w = .ok (.error b e, w')) : R x none := by
  have := hp x w
  rw [h] at this
  cases this with
  | error h' => exact h'

theorem Acc.of_incomplete {p : Parser σ I T E} {R : Rel I} (hp : Acc p R) {x : List I} {w w' : σ} {n : Nat}
    (h : p ⟨.endOfInput, x⟩ w = .ok (.incomplete n, w')) : R x none := by
  have := hp x w
  rw [h] at this
  cases this with
  | incomplete h' => exact h'

theorem Acc.of_div {p : Parser σ I T E} {R : Rel I} (hp : Acc p R) {x : List I} {w : σ}
    (h : p ⟨.endOfInput, x⟩ w = .div) (o : Option (List I)) : ¬ R x o := by
  have := hp x w
  rw [h] at this
  cases this with
  | div h' => exact h' o

theorem Acc.not_panic {p : Parser σ I T E} {R : Rel I} (hp : Acc p R) {x : List I} {w : σ} :
    p ⟨.endOfInput, x⟩ w ≠ .panic := by
  intro h
  have := hp x w
  rw [h] at this
  cases this

theorem Acc.not_ub {p : Parser σ I T E} {R : Rel I} (hp : Acc p R) {x : List I} {w : σ} :
    p ⟨.endOfInput, x⟩ w ≠ .ub := by
  intro h
  have := hp x w
  rw [h] at this
  cases this

theorem acc_bind {R S : Rel I} (hR : Det R) {p : Parser σ I T E} (hp : Acc p R) {conv : E → V}
    {f : T → Parser σ I U V} (hf : ∀ t, Acc (f t) S) : Acc (Parser.bind conv p f) (SeqR R S) := by
  intro x w
  refine fits_bind (hp x w) ?_ ?_ ?_ ?_
  · intro y t w' h
    rw [ParseResult.bind_data]
    refine fits_congr (fun o => ⟨fun ho => .inl ⟨y, h, ho⟩, ?_⟩) (hf t y w')
    rintro (⟨y', h1, h2⟩ | ⟨h1, _⟩)
    · cases hR _ _ _ h h1; exact h2
    · cases hR _ _ _ h h1
  · exact fun h b e w' => .error (.inr ⟨h, rfl⟩)
  · exact fun h n w' => .incomplete (.inr ⟨h, rfl⟩)
  · rintro h o (⟨y', h1, h2⟩ | ⟨h1, _⟩)
    · exact h _ h1
    · exact h _ h1

theorem acc_andThen {R S : Rel I} (hR : Det R) {p : Parser σ I T E} (hp : Acc p R) {conv : E → V}
    {q : Parser σ I U V} (hq : Acc q S) : Acc (Parser.andThen conv p q) (SeqR R S) :=
  acc_bind hR hp (f := fun _ => q) fun _ => hq

theorem acc_map {R : Rel I} {p : Parser σ I T E} (hp : Acc p R) (f : T → U) : Acc (Parser.map p f) R :=
  fun x w => fits_bind (hp x w) (fun _ _ _ h => .data h) (fun h _ _ _ => .error h)
    (fun h _ _ => .incomplete h) fun h => h

theorem acc_mapErr {R : Rel I} {p : Parser σ I T E} (hp : Acc p R) (f : E → V) :
    Acc (Parser.mapErr p f) R :=
  fun x w => fits_bind (hp x w) (fun _ _ _ h => .data h) (fun h _ _ _ => .error h)
    (fun h _ _ => .incomplete h) fun h => h

theorem acc_mapM {R : Rel I} {p : Parser σ I T E} (hp : Acc p R) (f : T → M σ U) (hf : ∀ t, AlwaysReturns (f t)) :
    Acc (Closures.map p f) R := by
  refine fun x w => fits_bind (hp x w) (fun y t w' h => ?_) (fun h _ _ _ => .error h)
    (fun h _ _ => .incomplete h) fun h => h
  obtain ⟨u, w1, h1⟩ := hf t w'
  show Fits _ ((f t >>= fun u => pure (.data ⟨.endOfInput, y⟩ u)) w')
  rw [M.bind_ok h1]
  exact .data h

theorem acc_inspect {R : Rel I} {p : Parser σ I T E} (hp : Acc p R) (f : T → M σ Unit)
    (hf : ∀ t, AlwaysReturns (f t)) : Acc (Parser.inspect p f) R := by
  refine fun x w => fits_bind (hp x w) (fun y t w' h => ?_) (fun h _ _ _ => .error h)
    (fun h _ _ => .incomplete h) fun h => h
  obtain ⟨u, w1, h1⟩ := hf t w'
  show Fits _ ((f t >>= fun _ => pure (.data ⟨.endOfInput, y⟩ t)) w')
  rw [M.bind_ok h1]
  exact .data h

theorem acc_or {R S : Rel I} (hR : Det R) {p q : Parser σ I T E} (hp : Acc p R) (hq : Acc q S) :
    Acc (Comb.or p q) (AltR R S) := by
  have hn : ∀ x, R x none → ∀ o, S x o ↔ AltR R S x o := by
    refine fun x h o => ⟨fun ho => .inr ⟨h, ho⟩, ?_⟩
    rintro (⟨y', h1, h2⟩ | ⟨_, h2⟩)
    · cases hR _ _ _ h h1
    · exact h2
  intro x w
  refine fits_bind (hp x w) ?_ ?_ ?_ ?_
  · exact fun y t w' h => .data (.inl ⟨y, h, rfl⟩)
  · exact fun h b e w' => fits_congr (hn x h) (hq x w')
  · exact fun h n w' => fits_congr (hn x h) (hq x w')
  · rintro h o (⟨y', h1, h2⟩ | ⟨h1, _⟩)
    · exact h _ h1
    · exact h _ h1

theorem acc_ret (t : T) : Acc (Parser.ret t : Parser σ I T E) EmptyR := fun _ _ => .data rfl

theorem acc_err (e : E) : Acc (Parser.err e : Parser σ I T E) (NotR EmptyR) :=
  fun x _ => .error (.inl ⟨x, rfl, rfl⟩)

theorem acc_option {R : Rel I} (hR : Det R) {p : Parser σ I T E} (hp : Acc p R) (t : T) :
    Acc (Comb.option p t) (AltR R EmptyR) := by
  rw [Props.C20_option_is_or]
  exact acc_or hR hp (acc_ret t)

theorem not_not {R : Rel I} (x : List I) (o : Option (List I)) :
    NotR (NotR R) x o ↔ (∃ y, R x (some y) ∧ o = some x) ∨ R x none ∧ o = none := by
  constructor
  · rintro (⟨y, ⟨y', h1, h2⟩ | ⟨h1, h2⟩, rfl⟩ | ⟨⟨y', h1, h2⟩ | ⟨h1, h2⟩, rfl⟩)
    · cases h2
    · exact .inr ⟨h1, rfl⟩
    · exact .inl ⟨_, h1, rfl⟩
    · cases h2
  · rintro (⟨y, h, rfl⟩ | ⟨h, rfl⟩)
    · exact .inr ⟨.inl ⟨y, h, rfl⟩, rfl⟩
    · exact .inl ⟨x, .inr ⟨h, rfl⟩, rfl⟩

theorem acc_lookAhead {R : Rel I} {p : Parser σ I T E} (hp : Acc p R) :
    Acc (Comb.lookAhead p) (NotR (NotR R)) := by
  intro x w
  refine fits_bind (hp x w) ?_ ?_ ?_ ?_
  · exact fun y t w' h => .data ((not_not _ _).mpr (.inl ⟨y, h, rfl⟩))
  · exact fun h b e w' => .error ((not_not _ _).mpr (.inr ⟨h, rfl⟩))
  · exact fun h n w' => .incomplete ((not_not _ _).mpr (.inr ⟨h, rfl⟩))
  · intro h o ho
    rcases (not_not _ _).mp ho with ⟨y', h1, h2⟩ | ⟨h1, _⟩
    · exact h _ h1
    · exact h _ h1

theorem acc_matchedBy {R : Rel I} (hR : Ends R) {p : Parser σ I T E} (hp : Acc p R) :
    Acc (Comb.matchedBy p) R := by
  intro x w
  refine fits_bind (hp x w) ?_ (fun h _ _ _ => .error h) (fun h _ _ => .incomplete h) fun h => h
  intro y t w' h
  obtain ⟨z, rfl⟩ := hR _ _ h
  have h1 : usub (z ++ y).length y.length = .ok z.length := by
    rw [List.length_append, usub_ok (by omega)]
    congr 1
    omega
  dsimp only
  rw [h1]
  rw [M.bind_ok (x := M.lift (Res.ok z.length)) (a := z.length) (w' := w') rfl,
    M.bind_ok (sliceTo_ok (by simp) w')]
  exact .data h

/-- `!e` -/
theorem acc_not {R : Rel I} {p : Parser σ I T E} (hp : Acc p R) (e : E) :
    Acc (Parser.bind id (Comb.option (Parser.map (Comb.lookAhead p) some) none)
      fun o => if o.isSome then Parser.err e else Parser.ret ()) (NotR R) := by
  have step : ∀ {q : Parser σ I (Option T) E} {x w r w'}, q ⟨.endOfInput, x⟩ w = .ok (r, w') →
      Parser.bind id q (fun o => if o.isSome then Parser.err e else Parser.ret ()) ⟨.endOfInput, x⟩ w =
        r.bind id (fun i (o : Option T) => (if o.isSome then Parser.err e else Parser.ret () :
          Parser σ I Unit E) i) w' := fun h => M.bind_ok h
  intro x w
  have := hp x w
  match hr : p ⟨.endOfInput, x⟩ w, this with
  | _, .data (y := y) (t := t) (w := w') h =>
    have h1 := Props.C21_look_ahead_ok p _ _ _ _ _ hr
    have h2 : Parser.map (Comb.lookAhead p) some ⟨.endOfInput, x⟩ w =
        .ok (.data ⟨.endOfInput, x⟩ (some t), w') := M.bind_ok h1
    rw [step (Props.C19_option_ok _ none _ _ _ _ _ h2)]
    exact .error (.inl ⟨y, h, rfl⟩)
  | _, .error (b := b) (e := e1) (w := w') h =>
    have h1 := Props.C21_look_ahead_err p _ _ _ _ _ hr
    have h2 : Parser.map (Comb.lookAhead p) some ⟨.endOfInput, x⟩ w = .ok (.error b e1, w') :=
      M.bind_ok h1
    rw [step (Props.C19_option_err _ none _ _ _ _ _ h2)]
    exact .data (.inr ⟨h, rfl⟩)
  | _, .incomplete (n := n) (w := w') h =>
    have h1 := Props.C21_look_ahead_incomplete p _ _ _ _ hr
    have h2 : Parser.map (Comb.lookAhead p) some ⟨.endOfInput, x⟩ w = .ok (.incomplete n, w') :=
      M.bind_ok h1
    rw [step (Props.C19_option_incomplete _ none _ _ _ _ _ h2)]
    exact .data (.inr ⟨h, rfl⟩)
  | _, .div h =>
    have h1 : Comb.lookAhead p ⟨.endOfInput, x⟩ w = .div := Recursive.bind_div hr
    have h2 : Parser.map (Comb.lookAhead p) some ⟨.endOfInput, x⟩ w = .div := Recursive.bind_div h1
    have h3 := (Props.C19_option_crash (Parser.map (Comb.lookAhead p) some) none _ _).2.2 h2
    have h4 : Parser.bind id (Comb.option (Parser.map (Comb.lookAhead p) some) none)
      (fun o => if o.isSome then Parser.err e else Parser.ret ()) ⟨.endOfInput, x⟩ w = .div :=
      Recursive.bind_div h3
    rw [h4]
    refine .div ?_
    rintro o (⟨y, h', _⟩ | ⟨h', _⟩)
    · exact h _ h'
    · exact h _ h'

/-! ### Repetition -/

/-- The meaning of `RepOutcome`. -/
def RepR (R : Rel I) (min : Nat) (max : Option Nat) : Rel I := fun x o => ∃ n y, Iter R n x y ∧
  (max = some n ∧ o = some y ∨ Below n max ∧ R y none ∧ o = if min ≤ n then some y else none)

theorem reps_iter {R : Rel I} {p : Parser σ I U E} (hp : Acc p R) {i i' : Input I} {w w' : σ} {us : List U}
    (h : Reps p i w us i' w') (hi : i.mode = .endOfInput) :
    i'.mode = .endOfInput ∧ Iter R us.length i.buf i'.buf := by
  induction h with
  | nil => exact ⟨hi, .zero⟩
  | @cons i _ _ _ _ _ _ _ h _ ih =>
    obtain ⟨m, x⟩ := i
    cases hi
    have h1 := hp.of_data h
    have h2 := ih h1.1
    exact ⟨h2.1, .succ h1.2 h2.2⟩

theorem iter_reps {R : Rel I} (hR : Det R) {p : Parser σ I U E} (hp : Acc p R) {n : Nat} {x y : List I}
    (h : Iter R n x y) (w : σ) : ∃ us w', us.length = n ∧ Reps p ⟨.endOfInput, x⟩ w us ⟨.endOfInput, y⟩ w' := by
  induction h generalizing w with
  | zero => exact ⟨[], w, rfl, .nil⟩
  | succ h _ ih =>
    obtain ⟨t, w1, h1⟩ := hp.data hR h w
    obtain ⟨us, w', h2, h3⟩ := ih w1
    exact ⟨t :: us, w', by rw [List.length_cons, h2], .cons h1 h3⟩

/-- A parser which repeats does what the relation says. -/
theorem acc_rep {R : Rel I} (hR : Det R) {p : Parser σ I U E} (hp : Acc p R) {min : Nat} {max : Option Nat}
    {q : Parser σ I (List U) E} (hq : ∀ i w o, o ≠ .div → (q i w = o ↔ RepOutcome p min max i w o)) :
    Acc q (RepR R min max) := by
  intro x w
  by_cases hd : q ⟨.endOfInput, x⟩ w = .div
  · rw [hd]
    refine .div ?_
    rintro o ⟨n, y, h1, h2⟩
    obtain ⟨us, w', rfl, h3⟩ := iter_reps hR hp h1 w
    have : ∃ r, RepOutcome p min max ⟨.endOfInput, x⟩ w (.ok r) := by
      rcases h2 with ⟨h2, _⟩ | ⟨h2, h4, _⟩
      · exact ⟨_, .full h3 h2⟩
      · by_cases hm : min ≤ us.length
        · rcases hp.fail hR h4 w' with ⟨b, e, w1, h5⟩ | ⟨n, w1, h5⟩
          · exact ⟨_, .stop_error h3 h2 h5 hm⟩
          · exact ⟨_, .stop_last h3 h2 h5 hm rfl⟩
        · rcases hp.fail hR h4 w' with ⟨b, e, w1, h5⟩ | ⟨n, w1, h5⟩
          · exact ⟨_, .error h3 h2 h5 (by omega)⟩
          · exact ⟨_, .incomplete h3 h2 h5 (.inl (by omega))⟩
    obtain ⟨r, h6⟩ := this
    exact absurd (((hq _ _ (.ok r) nofun).mpr h6).symm.trans hd) nofun
  · have h := (hq _ _ _ hd).mp rfl
    generalize q ⟨.endOfInput, x⟩ w = r at h
    cases h with
    | @full us i' _ h hm =>
      obtain ⟨m, y⟩ := i'
      obtain ⟨h1, h2⟩ := reps_iter hp h rfl
      cases h1
      exact .data ⟨_, _, h2, .inl ⟨hm, rfl⟩⟩
    | @stop_error us i' _ _ _ _ h hb hf hm =>
      obtain ⟨m, y⟩ := i'
      obtain ⟨h1, h2⟩ := reps_iter hp h rfl
      cases h1
      exact .data ⟨_, _, h2, .inr ⟨hb, hp.of_error hf, (if_pos hm).symm⟩⟩
    | @stop_last us i' _ _ _ h hb hf hm _ =>
      obtain ⟨m, y⟩ := i'
      obtain ⟨h1, h2⟩ := reps_iter hp h rfl
      cases h1
      exact .data ⟨_, _, h2, .inr ⟨hb, hp.of_incomplete hf, (if_pos hm).symm⟩⟩
    | @error us i' _ _ _ _ h hb hf hm =>
      obtain ⟨m, y⟩ := i'
      obtain ⟨h1, h2⟩ := reps_iter hp h rfl
      cases h1
      exact .error ⟨_, _, h2, .inr ⟨hb, hp.of_error hf, (if_neg (by omega)).symm⟩⟩
    | @incomplete us i' _ _ _ h hb hf hm =>
      obtain ⟨m, y⟩ := i'
      obtain ⟨h1, h2⟩ := reps_iter hp h rfl
      cases h1
      refine .incomplete ⟨_, _, h2, .inr ⟨hb, hp.of_incomplete hf, (if_neg ?_).symm⟩⟩
      rcases hm with hm | hm
      · omega
      · cases hm
    | @panic us i' _ h _ hf =>
      obtain ⟨m, y⟩ := i'
      cases (reps_iter hp h rfl).1
      exact absurd hf hp.not_panic
    | @ub us i' _ h _ hf =>
      obtain ⟨m, y⟩ := i'
      cases (reps_iter hp h rfl).1
      exact absurd hf hp.not_ub

/-- `e … e t` -/
theorem sem_times (N : K → Rel I) (e t : Peg K I) (n : Nat) : ∀ x o, Sem N (times e n t) x o ↔
    (∃ y, Iter (Sem N e) n x y ∧ Sem N t y o) ∨
      ∃ k y, k < n ∧ Iter (Sem N e) k x y ∧ Sem N e y none ∧ o = none := by
  induction n with
  | zero =>
    intro x o
    refine ⟨fun h => .inl ⟨x, .zero, h⟩, ?_⟩
    rintro (⟨y, h1, h2⟩ | ⟨k, y, h, _⟩)
    · cases h1; exact h2
    · omega
  | succ n ih =>
    intro x o
    constructor
    · rintro (⟨y, h1, h2⟩ | ⟨h1, rfl⟩)
      · rcases (ih y o).mp h2 with ⟨z, h3, h4⟩ | ⟨k, z, h3, h4, h5⟩
        · exact .inl ⟨z, .succ h1 h3, h4⟩
        · exact .inr ⟨k + 1, z, by omega, .succ h1 h4, h5⟩
      · exact .inr ⟨0, x, by omega, .zero, h1, rfl⟩
    · rintro (⟨y, h1, h2⟩ | ⟨k, y, h, h1, h2, rfl⟩)
      · cases h1 with
        | succ h1 h3 => exact .inl ⟨_, h1, (ih _ _).mpr (.inl ⟨y, h3, h2⟩)⟩
      · cases h1 with
        | zero => exact .inr ⟨h2, rfl⟩
        | succ h1 h3 => exact .inl ⟨_, h1, (ih _ _).mpr (.inr ⟨_, y, by omega, h3, h2, rfl⟩)⟩

/-- `(e (e …)?)?` -/
theorem sem_upTo (N : K → Rel I) (e : Peg K I) (n : Nat) : ∀ x o, Sem N (upTo e n) x o ↔
    ∃ k y, Iter (Sem N e) k x y ∧ (k = n ∨ k < n ∧ Sem N e y none) ∧ o = some y := by
  induction n with
  | zero =>
    intro x o
    refine ⟨fun h => ⟨0, x, .zero, .inl rfl, h⟩, ?_⟩
    rintro ⟨k, y, h, h1 | h1, rfl⟩
    · cases h1; cases h; rfl
    · omega
  | succ n ih =>
    intro x o
    constructor
    · rintro (⟨z, ⟨y, h1, h2⟩ | ⟨h1, h2⟩, rfl⟩ | ⟨⟨y, h1, h2⟩ | ⟨h1, _⟩, h3⟩)
      · obtain ⟨k, z', h3, h4, h5⟩ := (ih _ _).mp h2
        cases h5
        exact ⟨k + 1, z, .succ h1 h3, h4.imp (congrArg (· + 1)) (And.imp_left (Nat.succ_lt_succ ·)), rfl⟩
      · cases h2
      · obtain ⟨k, z', h3, h4, h5⟩ := (ih _ _).mp h2
        cases h5
      · exact ⟨0, x, .zero, .inr ⟨by omega, h1⟩, h3⟩
    · rintro ⟨k, y, h, h1, rfl⟩
      cases h with
      | zero => exact .inr ⟨.inr ⟨h1.elim (fun h => by omega) And.right, rfl⟩, rfl⟩
      | succ h2 h3 =>
        exact .inl ⟨y, .inl ⟨_, h2, (ih _ _).mpr ⟨_, y, h3, h1.imp (by omega) (And.imp_left (by omega)), rfl⟩⟩, rfl⟩

theorem sem_repeated (N : K → Rel I) (e : Peg K I) (min : Nat) (max : Option Nat)
    (h : ∀ m, max = some m → min ≤ m) (x : List I) (o : Option (List I)) :
    Sem N (repeated e min max) x o ↔ RepR (Sem N e) min max x o := by
  cases max with
  | none =>
    rw [repeated, sem_times]
    constructor
    · rintro (⟨y, h1, n, z, h2, h3, rfl⟩ | ⟨k, y, h1, h2, h3, rfl⟩)
      · exact ⟨_, z, h1.append h2, .inr ⟨nofun, h3, (if_pos (by omega)).symm⟩⟩
      · exact ⟨k, y, h2, .inr ⟨nofun, h3, (if_neg (by omega)).symm⟩⟩
    · rintro ⟨n, y, h1, h2 | ⟨_, h2, rfl⟩⟩
      · cases h2.1
      · by_cases hm : min ≤ n
        · obtain ⟨k, rfl⟩ := Nat.exists_eq_add_of_le hm
          obtain ⟨z, h3, h4⟩ := h1.split
          rw [if_pos hm]
          exact .inl ⟨z, h3, k, y, h4, h2, rfl⟩
        · rw [if_neg hm]
          exact .inr ⟨n, y, by omega, h1, h2, rfl⟩
  | some m =>
    have hm := h m rfl
    rw [repeated, sem_times]
    constructor
    · rintro (⟨y, h1, h2⟩ | ⟨k, y, h1, h2, h3, rfl⟩)
      · obtain ⟨k, z, h3, h4 | ⟨h4, h5⟩, rfl⟩ := (sem_upTo ..).mp h2
        · refine ⟨_, z, h1.append h3, .inl ⟨?_, rfl⟩⟩
          rw [h4]
          congr 1
          omega
        · exact ⟨_, z, h1.append h3, .inr ⟨fun m' e => by cases e; omega, h5, (if_pos (by omega)).symm⟩⟩
      · exact ⟨k, y, h2, .inr ⟨fun m' e => by cases e; omega, h3, (if_neg (by omega)).symm⟩⟩
    · rintro ⟨n, y, h1, ⟨h2, rfl⟩ | ⟨h2, h3, rfl⟩⟩
      · cases h2
        obtain ⟨k, hk⟩ := Nat.exists_eq_add_of_le hm
        rw [hk] at h1
        obtain ⟨z, h3, h4⟩ := h1.split
        exact .inl ⟨z, h3, (sem_upTo ..).mpr ⟨k, y, h4, .inl (by omega), rfl⟩⟩
      · have h2 := h2 m rfl
        by_cases hm : min ≤ n
        · obtain ⟨k, rfl⟩ := Nat.exists_eq_add_of_le hm
          obtain ⟨z, h4, h5⟩ := h1.split
          rw [if_pos hm]
          exact .inl ⟨z, h4, (sem_upTo ..).mpr ⟨k, y, h5, .inr ⟨by omega, h3⟩, rfl⟩⟩
        · rw [if_neg hm]
          exact .inr ⟨n, y, by omega, h1, h3, rfl⟩

/-- A parser which repeats does what the expression says. -/
theorem acc_repeated {N : K → Rel I} (hN : ∀ k, Det (N k)) {e : Peg K I} {p : Parser σ I U E}
    (hp : Acc p (Sem N e)) {min : Nat} {max : Option Nat} (hmm : ∀ m, max = some m → min ≤ m)
    {q : Parser σ I (List U) E} (hq : ∀ i w o, o ≠ .div → (q i w = o ↔ RepOutcome p min max i w o)) :
    Acc q (Sem N (repeated e min max)) :=
  acc_congr (fun x o => (sem_repeated N e min max hmm x o).symm) (acc_rep (det_sem hN e) hp hq)

theorem acc_drop {R : Rel I} {p : Parser σ I T E} (hp : Acc p R) {q : Parser σ I Unit E}
    (h : ∀ i w, q i w = (p i w >>= fun x => .ok (Props.dropValue x.1, x.2))) : Acc q R := by
  intro x w
  rw [h]
  have := hp x w
  generalize p ⟨.endOfInput, x⟩ w = r at this
  cases this with
  | data h => exact .data h
  | error h => exact .error h
  | incomplete h => exact .incomplete h
  | div h => exact .div h

theorem acc_sepThen {R S : Rel I} (hS : Det S) {p : Parser σ I U E} (hp : Acc p R) {sep : Parser σ I V N}
    (hs : Acc sep S) (conv : N → E) : Acc (sepThen conv p sep) (SeqR S R) := by
  have h := acc_andThen (conv := conv) hS hs hp
  intro x w
  have h := h x w
  have e : sepThen conv p sep ⟨.endOfInput, x⟩ w = Parser.andThen conv sep p ⟨.endOfInput, x⟩ w := by
    unfold sepThen Parser.andThen ParseResult.andThen
    rw [M.bind_apply]
    cases sep ⟨.endOfInput, x⟩ w with
    | ok r =>
      obtain ⟨r, w'⟩ := r
      cases r with
      | data i t => simp
      | error b e => rfl
      | incomplete n => rfl
    | panic => rfl
    | ub => rfl
    | div => rfl
  rw [e]
  exact h

/-- The meaning of `SepOutcome`. -/
def SepR (R Q : Rel I) (min : Nat) : Rel I := fun x o =>
  (R x none ∧ o = if min = 0 then some x else none) ∨
  ∃ y n z, R x (some y) ∧ Iter Q n y z ∧ Q z none ∧ o = some z

theorem acc_sep {R Q : Rel I} (hR : Det R) (hQ : Det Q) {p q : Parser σ I U E} (hp : Acc p R) (hq : Acc q Q)
    {min : Nat} (hmin : min ≤ 1) {r : Parser σ I (List U) E}
    (hr : ∀ i w o, o ≠ .div → (r i w = o ↔ SepOutcome p q min i w o)) : Acc r (SepR R Q min) := by
  intro x w
  by_cases hd : r ⟨.endOfInput, x⟩ w = .div
  · rw [hd]
    refine .div fun o ho => ?_
    have : ∃ r, SepOutcome p q min ⟨.endOfInput, x⟩ w (.ok r) := by
      rcases ho with ⟨h1, _⟩ | ⟨y, n, z, h1, h2, h3, _⟩
      · by_cases hm : min = 0
        · rcases hp.fail hR h1 w with ⟨b, e, w1, h5⟩ | ⟨n, w1, h5⟩
          · exact ⟨_, .stop_error .nil h5 (by simp [hm])⟩
          · exact ⟨_, .stop_last .nil h5 (by simp [hm]) rfl⟩
        · rcases hp.fail hR h1 w with ⟨b, e, w1, h5⟩ | ⟨n, w1, h5⟩
          · exact ⟨_, .error .nil h5 (by simp; omega)⟩
          · exact ⟨_, .incomplete .nil h5 (.inl (by simp; omega))⟩
      · obtain ⟨t, w1, h4⟩ := hp.data hR h1 w
        obtain ⟨us, w2, _, h5⟩ := iter_reps hQ hq h2 w1
        rcases hq.fail hQ h3 w2 with ⟨b, e, w1, h6⟩ | ⟨n, w1, h6⟩
        · exact ⟨_, .stop_error (.cons h4 h5) h6 (by simp; omega)⟩
        · exact ⟨_, .stop_last (.cons h4 h5) h6 (by simp; omega) rfl⟩
    obtain ⟨r, h6⟩ := this
    exact absurd (((hr _ _ (.ok r) nofun).mpr h6).symm.trans hd) nofun
  · have h := (hr _ _ _ hd).mp rfl
    generalize r ⟨.endOfInput, x⟩ w = r at h
    have first : ∀ {us i' w'}, SepReps p q ⟨.endOfInput, x⟩ w us i' w' →
        us = [] ∧ i' = ⟨.endOfInput, x⟩ ∧ attempt p q us = p ∨
        ∃ y n z, R x (some y) ∧ Iter Q n y z ∧ i' = ⟨.endOfInput, z⟩ ∧ 1 ≤ us.length ∧
          attempt p q us = q := by
      intro us i' w' h
      cases h with
      | nil => exact .inl ⟨rfl, rfl, rfl⟩
      | cons h h' =>
        obtain ⟨h1, h2⟩ := hp.of_data h
        obtain ⟨h3, h4⟩ := reps_iter hq h' h1
        obtain ⟨m, z⟩ := i'
        cases h3
        exact .inr ⟨_, _, z, h2, h4, rfl, by simp, rfl⟩
    cases h with
    | stop_error h hf hm =>
      rcases first h with ⟨rfl, rfl, e⟩ | ⟨y, n, z, h1, h2, rfl, h3, e⟩
      · rw [e] at hf
        exact .data (.inl ⟨hp.of_error hf, (if_pos (by simpa using hm)).symm⟩)
      · rw [e] at hf
        exact .data (.inr ⟨y, n, z, h1, h2, hq.of_error hf, rfl⟩)
    | stop_last h hf hm _ =>
      rcases first h with ⟨rfl, rfl, e⟩ | ⟨y, n, z, h1, h2, rfl, h3, e⟩
      · rw [e] at hf
        exact .data (.inl ⟨hp.of_incomplete hf, (if_pos (by simpa using hm)).symm⟩)
      · rw [e] at hf
        exact .data (.inr ⟨y, n, z, h1, h2, hq.of_incomplete hf, rfl⟩)
    | error h hf hm =>
      rcases first h with ⟨rfl, rfl, e⟩ | ⟨y, n, z, h1, h2, rfl, h3, e⟩
      · rw [e] at hf
        exact .error (.inl ⟨hp.of_error hf, (if_neg (by simp at hm; omega)).symm⟩)
      · omega
    | incomplete h hf hm =>
      rcases first h with ⟨rfl, rfl, e⟩ | ⟨y, n, z, h1, h2, rfl, h3, e⟩
      · rw [e] at hf
        refine .incomplete (.inl ⟨hp.of_incomplete hf, (if_neg ?_).symm⟩)
        rcases hm with hm | hm
        · simp at hm; omega
        · cases hm
      · rcases hm with hm | hm
        · omega
        · cases hm
    | panic h hf =>
      rcases first h with ⟨rfl, rfl, e⟩ | ⟨y, n, z, h1, h2, rfl, h3, e⟩
      · rw [e] at hf; exact absurd hf hp.not_panic
      · rw [e] at hf; exact absurd hf hq.not_panic
    | ub h hf =>
      rcases first h with ⟨rfl, rfl, e⟩ | ⟨y, n, z, h1, h2, rfl, h3, e⟩
      · rw [e] at hf; exact absurd hf hp.not_ub
      · rw [e] at hf; exact absurd hf hq.not_ub

theorem sem_sep1 {R Q : Rel I} (x : List I) (o : Option (List I)) :
    SepR R Q 1 x o ↔ SeqR R (StarR Q) x o := by
  constructor
  · rintro (⟨h1, h2⟩ | ⟨y, n, z, h1, h2, h3, h4⟩)
    · exact .inr ⟨h1, h2⟩
    · exact .inl ⟨y, h1, n, z, h2, h3, h4⟩
  · rintro (⟨y, h1, n, z, h2, h3, h4⟩ | ⟨h1, h2⟩)
    · exact .inr ⟨y, n, z, h1, h2, h3, h4⟩
    · exact .inl ⟨h1, h2⟩

theorem sem_sep {R Q : Rel I} (x : List I) (o : Option (List I)) :
    SepR R Q 0 x o ↔ AltR (SeqR R (StarR Q)) EmptyR x o := by
  constructor
  · rintro (⟨h1, h2⟩ | ⟨y, n, z, h1, h2, h3, h4⟩)
    · exact .inr ⟨.inr ⟨h1, rfl⟩, h2⟩
    · exact .inl ⟨z, .inl ⟨y, h1, n, z, h2, h3, rfl⟩, h4⟩
  · rintro (⟨z, ⟨y, h1, n, z', h2, h3, h4⟩ | ⟨_, h⟩, rfl⟩ | ⟨⟨y, h1, n, z', h2, h3, h4⟩ | ⟨h1, h⟩, h2⟩)
    · exact .inr ⟨y, n, z', h1, h2, h3, h4⟩
    · cases h
    · cases h4
    · exact .inl ⟨h1, h2⟩

/-! ### `many_till` -/

/-- The meaning of `TillOutcome` without limits. -/
def TillR (R Q : Rel I) : Rel I := fun x o => ∃ n y, Iter (SeqR (NotR Q) R) n x y ∧
  (∃ z, Q y (some z) ∧ o = some z ∨ Q y none ∧ R y none ∧ o = none)

theorem test_one {Q : Rel I} {q : Parser σ I V N} (hq : Acc q Q) {x : List I} {w w' : σ} {r : Option (Input I)}
    (h : Test q 1 ⟨.endOfInput, x⟩ w r w') :
    (∃ z, r = some ⟨.endOfInput, z⟩ ∧ Q x (some z)) ∨ r = none ∧ Q x none := by
  cases h with
  | @hit _ _ _ i' _ _ h =>
    obtain ⟨h1, h2⟩ := hq.of_data h
    obtain ⟨m, z⟩ := i'
    cases h1
    exact .inl ⟨z, rfl, h2⟩
  | miss_error h h' => cases h'; exact .inr ⟨rfl, hq.of_error h⟩
  | miss_incomplete h h' => cases h'; exact .inr ⟨rfl, hq.of_incomplete h⟩

theorem test_fail {Q : Rel I} (hQ : Det Q) {q : Parser σ I V N} (hq : Acc q Q) {x : List I}
    (h : Q x none) (w : σ) : ∃ w', Test q 1 ⟨.endOfInput, x⟩ w none w' := by
  rcases hq.fail hQ h w with ⟨b, e, w1, h5⟩ | ⟨n, w1, h5⟩
  · exact ⟨w1, .miss_error h5 .none⟩
  · exact ⟨w1, .miss_incomplete h5 .none⟩

theorem tries_one (k : Nat) : tries 0 none 1 k = 1 := by simp [tries]

theorem acc_till {R Q : Rel I} (hR : Det R) (hQ : Det Q) {p : Parser σ I U E} {q : Parser σ I V N}
    (hp : Acc p R) (hq : Acc q Q) {r : Parser σ I (List U) E}
    (hr : ∀ i w o, o ≠ .div → (r i w = o ↔ TillOutcome p q 0 none 1 i w o)) : Acc r (TillR R Q) := by
  intro x w
  by_cases hd : r ⟨.endOfInput, x⟩ w = .div
  · rw [hd]
    refine .div ?_
    rintro o ⟨n, y, h1, h2⟩
    have key : ∀ {n z y}, Iter (SeqR (NotR Q) R) n z y → ∀ us w1,
        TillRun p q 0 none 1 ⟨.endOfInput, x⟩ w us ⟨.endOfInput, z⟩ w1 →
        ∃ us w1, TillRun p q 0 none 1 ⟨.endOfInput, x⟩ w us ⟨.endOfInput, y⟩ w1 := by
      intro n z y h
      induction h with
      | zero => exact fun us w1 h => ⟨us, w1, h⟩
      | succ h _ ih =>
        intro us w1 hu
        rcases h with ⟨z', ⟨_, _, h⟩ | ⟨h3, h4⟩, h5⟩ | ⟨_, h⟩
        · cases h
        · cases h4
          obtain ⟨w2, h6⟩ := test_fail hQ hq h3 w1
          obtain ⟨t, w3, h7⟩ := hp.data hR h5 w2
          exact ih _ _ (.snoc hu nofun (by rw [tries_one]; exact h6) h7)
        · cases h
    obtain ⟨us, w1, hu⟩ := key h1 [] w .nil
    have : ∃ r, TillOutcome p q 0 none 1 ⟨.endOfInput, x⟩ w (.ok r) := by
      obtain ⟨z, ⟨h3, _⟩ | ⟨h3, h4, _⟩⟩ := h2
      · obtain ⟨t, w2, h5⟩ := hq.data hQ h3 w1
        exact ⟨_, .done hu (by rw [tries_one]; exact .hit h5)⟩
      · obtain ⟨w2, h6⟩ := test_fail hQ hq h3 w1
        rcases hp.fail hR h4 w2 with ⟨b, e, w3, h5⟩ | ⟨n, w3, h5⟩
        · exact ⟨_, .error hu nofun (by rw [tries_one]; exact h6) h5⟩
        · exact ⟨_, .incomplete hu nofun (by rw [tries_one]; exact h6) h5⟩
    obtain ⟨r, h6⟩ := this
    exact absurd (((hr _ _ (.ok r) nofun).mpr h6).symm.trans hd) nofun
  · have h := (hr _ _ _ hd).mp rfl
    generalize r ⟨.endOfInput, x⟩ w = r at h
    have run : ∀ {us i' w'}, TillRun p q 0 none 1 ⟨.endOfInput, x⟩ w us i' w' →
        ∃ y, i' = ⟨.endOfInput, y⟩ ∧ Iter (SeqR (NotR Q) R) us.length x y := by
      intro us i' w' h
      induction h with
      | nil => exact ⟨x, rfl, .zero⟩
      | @snoc us i' w' w1 i2 u w2 _ _ ht h ih =>
        obtain ⟨y, rfl, h1⟩ := ih
        rw [tries_one] at ht
        rcases test_one hq ht with ⟨_, h2, _⟩ | ⟨_, h2⟩
        · cases h2
        · obtain ⟨h3, h4⟩ := hp.of_data h
          obtain ⟨m, z⟩ := i2
          cases h3
          refine ⟨z, rfl, ?_⟩
          rw [List.length_append]
          exact h1.snoc (.inl ⟨y, .inr ⟨h2, rfl⟩, h4⟩)
    cases h with
    | done h ht =>
      obtain ⟨y, rfl, h1⟩ := run h
      rw [tries_one] at ht
      rcases test_one hq ht with ⟨z, h2, h3⟩ | ⟨h2, _⟩
      · cases h2; exact .data ⟨_, y, h1, z, .inl ⟨h3, rfl⟩⟩
      · cases h2
    | limit h hm ht => cases hm
    | error h _ ht hf =>
      obtain ⟨y, rfl, h1⟩ := run h
      rw [tries_one] at ht
      rcases test_one hq ht with ⟨z, h2, h3⟩ | ⟨_, h2⟩
      · cases h2
      · exact .error ⟨_, y, h1, [], .inr ⟨h2, hp.of_error hf, rfl⟩⟩
    | incomplete h _ ht hf =>
      obtain ⟨y, rfl, h1⟩ := run h
      rw [tries_one] at ht
      rcases test_one hq ht with ⟨z, h2, h3⟩ | ⟨_, h2⟩
      · cases h2
      · exact .incomplete ⟨_, y, h1, [], .inr ⟨h2, hp.of_incomplete hf, rfl⟩⟩
    | panic_p h _ _ hf =>
      obtain ⟨y, rfl, h1⟩ := run h
      exact absurd hf hp.not_panic
    | ub_p h _ _ hf =>
      obtain ⟨y, rfl, h1⟩ := run h
      exact absurd hf hp.not_ub
    | panic_end h _ _ hf =>
      obtain ⟨y, rfl, h1⟩ := run h
      exact absurd hf hq.not_panic
    | ub_end h _ _ hf =>
      obtain ⟨y, rfl, h1⟩ := run h
      exact absurd hf hq.not_ub

theorem sem_till {R Q : Rel I} (hQ : Det Q) (x : List I) (o : Option (List I)) :
    TillR R Q x o ↔ SeqR (StarR (SeqR (NotR Q) R)) Q x o := by
  constructor
  · rintro ⟨n, y, h1, z, ⟨h2, rfl⟩ | ⟨h2, h3, rfl⟩⟩
    · exact .inl ⟨y, ⟨n, y, h1, .inr ⟨.inl ⟨z, h2, rfl⟩, rfl⟩, rfl⟩, h2⟩
    · exact .inl ⟨y, ⟨n, y, h1, .inl ⟨y, .inr ⟨h2, rfl⟩, h3⟩, rfl⟩, h2⟩
  · rintro (⟨y, ⟨n, y', h1, h2, h3⟩, h4⟩ | ⟨⟨n, y', h1, h2, h3⟩, _⟩)
    · cases h3
      refine ⟨n, y, h1, ?_⟩
      rcases h2 with ⟨y', ⟨_, _, h⟩ | ⟨h5, h6⟩, h7⟩ | ⟨⟨z, h5, _⟩ | ⟨_, h⟩, _⟩
      · cases h
      · cases h6
        exact ⟨[], .inr ⟨h5, h7, hQ _ _ _ h4 h5⟩⟩
      · exact ⟨z, .inl ⟨h5, hQ _ _ _ h4 h5⟩⟩
      · cases h
    · cases h3

/-- `end` after a failure of which the state is known -/
theorem acc_first {R Q : Rel I} (hQ : Det Q) {q : Parser σ I V N} (hq : Acc q Q) {r : Parser σ I (List U) E}
    {k : Parser σ I (List U) E} (hk : Acc k R)
    (h : ∀ i w, r i w = q i w >>= fun x => match x.1 with
      | .data b _ => .ok (.data b [], x.2)
      | _ => k i x.2) : Acc r (AltR Q R) := by
  intro x w
  have key : Q x none → ∀ o, R x o ↔ AltR Q R x o := by
    intro h o
    refine ⟨fun h' => .inr ⟨h, h'⟩, fun h' => ?_⟩
    rcases h' with ⟨_, h1, _⟩ | ⟨_, h1⟩
    · exact absurd (hQ _ _ _ h h1) nofun
    · exact h1
  rw [h]
  have := hq x w
  generalize q ⟨.endOfInput, x⟩ w = y at this
  cases this with
  | data h => exact .data (.inl ⟨_, h, rfl⟩)
  | error h => exact fits_congr (key h) (hk x _)
  | incomplete h => exact fits_congr (key h) (hk x _)
  | div h =>
    refine .div fun o ho => ?_
    rcases ho with ⟨_, h1, _⟩ | ⟨h1, _⟩
    · exact h _ h1
    · exact h _ h1

theorem acc_end {Q : Rel I} {q : Parser σ I V N} (hq : Acc q Q) {r : Parser σ I (List U) E}
    (h : ∀ i w, r i w = q i w >>= fun x =>
      .ok (match x.1 with | .data b _ => .data b [] | _ => .incomplete 1, x.2)) : Acc r Q := by
  intro x w
  rw [h]
  have := hq x w
  generalize q ⟨.endOfInput, x⟩ w = y at this
  cases this with
  | data h => exact .data h
  | error h => exact .incomplete h
  | incomplete h => exact .incomplete h
  | div h => exact .div h

section Bounded

variable {N : K → Rel I} (hN : ∀ k, Det (N k)) {a b : Peg K I} {p : Parser σ I U E} {q : Parser σ I V W}
  (hp : Acc p (Sem N a)) (hq : Acc q (Sem N b))

include hN hp hq

theorem acc_tillFrom (n : Nat) :
    Acc (Bounded.manyTill (.from_ n) (Collect.vec U) p q) (Sem N (.till a b n none)) := by
  induction n with
  | zero =>
    rw [(Props.C71_many_till_from 0 p q).1]
    exact acc_congr (sem_till (det_sem hN _)) (acc_till (det_sem hN _) (det_sem hN _) hp hq
      fun i w o ho => Props.C33_many_till _ _ i w o ho)
  | succ n ih =>
    rw [(Props.C71_many_till_from n p q).2]
    exact acc_bind (det_sem hN _) hp fun v => acc_map ih _

theorem acc_tillExactly (n : Nat) :
    Acc (Bounded.manyTill (.exactly n) (Collect.vec U) p q) (Sem N (.till a b n (some n))) := by
  have : ∀ m, Acc (Bounded.manyTill (.exactly n) (Collect.vec U) p q)
      (Sem N (times a n (tillUpTo a b (m - m)))) := by
    induction n with
    | zero =>
      intro m
      rw [Nat.sub_self]
      exact acc_end hq (Props.C71_many_till_exactly 0 p q).1
    | succ n ih =>
      intro m
      rw [(Props.C71_many_till_exactly n p q).2]
      exact acc_bind (det_sem hN _) hp fun v => acc_map (ih m) _
  exact this n

theorem acc_tillRange (m n : Nat) (hmn : m < n) :
    Acc (Bounded.manyTill (.range m n) (Collect.vec U) p q) (Sem N (.till a b m (some (n - 1)))) := by
  induction m generalizing n with
  | zero =>
    obtain ⟨k, rfl⟩ : ∃ k, n = k + 1 := ⟨n - 1, by omega⟩
    show Acc _ (Sem N (tillUpTo a b k))
    clear hmn
    induction k with
    | zero =>
      refine acc_congr (fun x o => ?_) (acc_first (det_sem hN b) hq (acc_end hq fun _ _ => rfl)
        (Props.C71_many_till_range 0 1 0 (by omega) p q).2.2)
      refine ⟨?_, fun h => ?_⟩
      · rintro (⟨y, h, rfl⟩ | ⟨_, h⟩)
        · exact h
        · exact h
      · cases o with
        | none => exact .inr ⟨h, h⟩
        | some y => exact .inl ⟨y, h, rfl⟩
    | succ k ih =>
      exact acc_first (det_sem hN b) hq (acc_bind (det_sem hN _) hp fun v => acc_map ih _)
        (Props.C71_many_till_range 0 1 k (by omega) p q).2.1
  | succ m ih =>
    obtain ⟨k, rfl⟩ : ∃ k, n = k + 1 := ⟨n - 1, by omega⟩
    rw [(Props.C71_many_till_range m k 0 (by omega) p q).1]
    have e : Peg.till a b (m + 1) (some (k + 1 - 1)) = .seq a (Peg.till a b m (some (k - 1))) := by
      show times a (m + 1) (tillUpTo a b (k + 1 - 1 - (m + 1))) = .seq a (times a m (tillUpTo a b (k - 1 - m)))
      rw [show k + 1 - 1 - (m + 1) = k - 1 - m by omega]
      rfl
    rw [e]
    exact acc_bind (det_sem hN _) hp fun v => acc_map (ih k (by omega)) _

end Bounded

/-! ### Parsers without parts -/

theorem acc_item {R : Rel I} {p : Parser σ I T E} (f : I → Bool)
    (h0 : ∀ w, ∃ n w', p ⟨.endOfInput, []⟩ w = .ok (.incomplete n, w'))
    (h1 : ∀ c x w, f c = true → ∃ t w', p ⟨.endOfInput, c :: x⟩ w = .ok (.data ⟨.endOfInput, x⟩ t, w'))
    (h2 : ∀ c x w, f c = false → ∃ b e w', p ⟨.endOfInput, c :: x⟩ w = .ok (.error b e, w'))
    (hR : R = ItemR f) : Acc p R := by
  subst hR
  intro x w
  cases x with
  | nil =>
    obtain ⟨n, w', h⟩ := h0 w
    rw [h]
    exact .incomplete rfl
  | cons c x =>
    cases hc : f c with
    | true =>
      obtain ⟨t, w', h⟩ := h1 c x w hc
      rw [h]
      exact .data (by simp [ItemR, hc])
    | false =>
      obtain ⟨b, e, w', h⟩ := h2 c x w hc
      rw [h]
      exact .error (by simp [ItemR, hc])

theorem iter_item {f : I → Bool} : ∀ {x y : List I}, (∀ c ∈ x, f c = true) →
    Iter (ItemR f) x.length (x ++ y) y := by
  intro x
  induction x with
  | nil => exact fun _ => .zero
  | cons c x ih =>
    intro y h
    exact .succ (by simp [ItemR, h c (List.mem_cons_self ..)])
      (ih fun d hd => h d (List.mem_cons_of_mem _ hd))

theorem item_stop {f : I → Bool} {y : List I} (h : ∀ c r, y = c :: r → f c = false) : ItemR f y none := by
  cases y with
  | nil => rfl
  | cons c r => simp [ItemR, h c r rfl]

theorem acc_takeWhile (f : I → Bool) : Acc (Parsers.takeWhile f : Parser σ I _ _) (StarR (ItemR f)) := by
  intro b w
  obtain ⟨x, y, rfl, h⟩ := Props.MaxPrefix.exists f b
  rw [Props.C13_take_while f _ x y h]
  exact .data ⟨_, y, iter_item h.1, item_stop h.2, rfl⟩

theorem acc_takeRemainder : Acc (Parsers.takeRemainder : Parser σ I _ _) (StarR (ItemR fun _ => true)) := by
  intro b w
  rw [Props.C18_take_remainder]
  refine .data ⟨b.length, [], ?_, rfl, rfl⟩
  have := iter_item (f := fun _ => true) (x := b) (y := []) fun _ _ => rfl
  rwa [List.append_nil] at this

theorem acc_takeWhile1 (v : Bool) (f : I → Bool) :
    Acc (Parsers.takeWhile1 v f : Parser σ I _ _) (SeqR (ItemR f) (StarR (ItemR f))) := by
  intro b w
  cases b with
  | nil =>
    rw [Props.C14_take_while1_empty]
    exact .incomplete (.inr ⟨rfl, rfl⟩)
  | cons c b =>
    cases hc : f c with
    | false =>
      rw [Props.C14_take_while1_err v f _ c b hc]
      exact .error (.inr ⟨by simp [ItemR, hc], rfl⟩)
    | true =>
      obtain ⟨x, y, rfl, h⟩ := Props.MaxPrefix.exists f b
      have h' : Props.MaxPrefix f (c :: x) y := ⟨List.forall_mem_cons.mpr ⟨hc, h.1⟩, h.2⟩
      have := Props.C14_take_while1 v f .endOfInput (c :: x) y (by simp) h' w
      rw [List.cons_append] at this
      rw [this]
      exact .data (.inl ⟨x ++ y, by simp [ItemR, hc], _, y, iter_item h.1, item_stop h.2, rfl⟩)

theorem acc_takeTill (f : I → Bool) :
    Acc (Parsers.takeTill f : Parser σ I _ _)
      (SeqR (StarR (ItemR fun c => !f c)) (NotR (NotR (ItemR f)))) := by
  intro b w
  obtain ⟨x, y, rfl, h⟩ := Props.MaxPrefix.exists (fun c => !f c) b
  have hx : ∀ c ∈ x, f c = false := fun c hc => by simpa using h.1 c hc
  cases y with
  | nil =>
    rw [List.append_nil, Props.C15_take_till_none f _ x hx]
    have := iter_item (f := fun c => !f c) (x := x) (y := []) h.1
    rw [List.append_nil] at this
    exact .incomplete (.inl ⟨[], ⟨_, [], this, rfl, rfl⟩, (not_not _ _).mpr (.inr ⟨rfl, rfl⟩)⟩)
  | cons c y =>
    have hc : f c = true := by simpa using h.2 c y rfl
    rw [Props.C15_take_till f _ x c y hx hc]
    exact .data (.inl ⟨c :: y, ⟨_, _, iter_item h.1, item_stop h.2, rfl⟩,
      (not_not _ _).mpr (.inl ⟨y, by simp [ItemR, hc], rfl⟩)⟩)

theorem iter_any (x y : List I) : Iter (ItemR fun _ => true) x.length (x ++ y) y := iter_item fun _ _ => rfl

theorem acc_take (N : K → Rel I) (n : Nat) :
    Acc (Parsers.take n : Parser σ I _ _) (Sem N (times any n .empty)) := by
  intro b w
  by_cases h : n ≤ b.length
  · have := Props.C12_take_ok .endOfInput (b.take n) (b.drop n) w
    rw [List.take_append_drop, List.length_take, Nat.min_eq_left h] at this
    rw [this]
    refine .data ((sem_times ..).mpr (.inl ⟨b.drop n, ?_, rfl⟩))
    have := iter_any (b.take n) (b.drop n)
    rwa [List.take_append_drop, List.length_take, Nat.min_eq_left h] at this
  · have := Props.C12_take_short .endOfInput b (n - b.length) (by omega) w
    rw [Nat.add_sub_cancel' (by omega)] at this
    rw [this]
    refine .incomplete ((sem_times ..).mpr (.inr ⟨b.length, [], by omega, ?_, rfl, rfl⟩))
    have := iter_any b []
    rwa [List.append_nil] at this

theorem sem_literal [DecidableEq I] (N : K → Rel I) (s : List I) : ∀ x o, Sem N (literal s) x o ↔
    (∃ y, x = s ++ y ∧ o = some y) ∨ (¬ ∃ y, x = s ++ y) ∧ o = none := by
  induction s with
  | nil =>
    intro x o
    constructor
    · intro h; exact .inl ⟨x, rfl, h⟩
    · rintro (⟨y, rfl, h⟩ | ⟨h, _⟩)
      · exact h
      · exact absurd ⟨x, rfl⟩ h
  | cons c s ih =>
    intro x o
    cases x with
    | nil =>
      constructor
      · rintro (⟨y, h, _⟩ | ⟨_, h⟩)
        · cases h
        · exact .inr ⟨(fun ⟨_, h⟩ => nomatch h), h⟩
      · rintro (⟨y, h, _⟩ | ⟨_, h⟩)
        · cases h
        · exact .inr ⟨rfl, h⟩
    | cons d x =>
      by_cases hd : d = c
      · subst hd
        have e : Sem N (.item (· = d)) (d :: x) = fun o => o = some x := by
          funext o
          simp [Sem, ItemR]
        show SeqR (Sem N (.item (· = d))) _ _ _ ↔ _
        unfold SeqR
        rw [e]
        constructor
        · rintro (⟨y, h1, h2⟩ | ⟨h1, _⟩)
          · cases h1
            rcases (ih x o).mp h2 with ⟨z, rfl, h⟩ | ⟨h, h'⟩
            · exact .inl ⟨z, rfl, h⟩
            · refine .inr ⟨?_, h'⟩
              rintro ⟨z, hz⟩
              cases hz
              exact h ⟨z, rfl⟩
          · cases h1
        · rintro (⟨y, h1, h2⟩ | ⟨h1, h2⟩)
          · cases h1
            exact .inl ⟨_, rfl, (ih _ _).mpr (.inl ⟨y, rfl, h2⟩)⟩
          · refine .inl ⟨_, rfl, (ih _ _).mpr (.inr ⟨?_, h2⟩)⟩
            rintro ⟨z, rfl⟩
            exact h1 ⟨z, rfl⟩
      · have e : Sem N (.item (· = c)) (d :: x) = fun o => o = none := by
          funext o
          simp [Sem, ItemR, hd]
        show SeqR (Sem N (.item (· = c))) _ _ _ ↔ _
        unfold SeqR
        rw [e]
        constructor
        · rintro (⟨y, h1, h2⟩ | ⟨h1, h2⟩)
          · cases h1
          · refine .inr ⟨?_, h2⟩
            rintro ⟨z, hz⟩
            cases hz
            exact hd rfl
        · rintro (⟨y, h1, h2⟩ | ⟨h1, h2⟩)
          · cases h1
            exact absurd rfl hd
          · exact .inr ⟨rfl, h2⟩

theorem acc_string [DecidableEq I] (N : K → Rel I) (v : Bool) (s : List I) :
    Acc (Parsers.string v s : Parser σ I _ _) (Sem N (literal s)) := by
  intro b w
  by_cases h : ∃ y, b = s ++ y
  · obtain ⟨y, rfl⟩ := h
    rw [Props.C17_string_match]
    exact .data ((sem_literal ..).mpr (.inl ⟨y, rfl, rfl⟩))
  · have hn := (sem_literal N s b none).mpr (.inr ⟨h, rfl⟩)
    have hb := Props.C06_no_panic (p := Parsers.string (σ := σ) v s) (.string v s) ⟨.endOfInput, b⟩ w
    have hr := Props.C69_returns (p := Parsers.string (σ := σ) v s) (.string v s) ⟨.endOfInput, b⟩ w
    have hu := Props.C69_defined (p := Parsers.string (σ := σ) v s) (.string v s) ⟨.endOfInput, b⟩ w
    match hs : Parsers.string v s ⟨.endOfInput, b⟩ w with
    | .ok (.data i t, w') => exact absurd ⟨_, ((Props.C17_string_iff ..).mp hs).2.2.2⟩ h
    | .ok (.error _ _, w') => exact .error hn
    | .ok (.incomplete _, w') => exact .incomplete hn
    | .panic => exact absurd hs hb
    | .ub => exact absurd hs hu
    | .div => exact absurd hs hr

/-! ### All together -/

variable {K : Type} {σ I : Type} {T E : K → Type}

theorem shows_acc {N : K → Rel I} (hd : ∀ k, Det (N k)) (he : ∀ k, Ends (N k)) {q : Fns σ I T E}
    (hq : ∀ k, Acc (q k) (N k)) {T' E' : Type} {p : Fns σ I T E → Parser σ I T' E'} {e : Peg K I}
    (h : Shows p e) : Acc (p q) (Sem N e) := by
  induction h with
  | call k => exact hq k
  | ret t => exact acc_ret t
  | err e => exact acc_err e
  | incomplete n _ => exact fun x _ => .incomplete (.inl ⟨x, rfl, rfl⟩)
  | bind _ _ ih1 ih2 => exact acc_bind (det_sem hd _) ih1 ih2
  | andThen _ _ ih1 ih2 => exact acc_andThen (det_sem hd _) ih1 ih2
  | map f _ ih => exact acc_map ih f
  | mapErr f _ ih => exact acc_mapErr ih f
  | mapM f hf _ ih => exact acc_mapM ih f hf
  | inspect f hf _ ih => exact acc_inspect ih f hf
  | any =>
    exact acc_item (fun _ => true) (fun w => ⟨_, _, (Props.C11_any _ w).1⟩)
      (fun c x w _ => ⟨_, _, (Props.C11_any _ w).2 c x⟩) nofun rfl
  | satisfy v f =>
    exact acc_item f (fun w => ⟨_, _, (Props.C11_satisfy v f _ w).1⟩)
      (fun c x w h => ⟨_, _, (Props.C11_satisfy v f _ w).2.1 c x h⟩)
      (fun c x w h => ⟨_, _, _, (Props.C11_satisfy v f _ w).2.2 c x h⟩) rfl
  | satisfyWith v f p =>
    exact acc_item _ (fun w => ⟨_, _, (Props.C11_satisfy_with v f p _ w).1⟩)
      (fun c x w h => ⟨_, _, (Props.C11_satisfy_with v f p _ w).2.1 c x h⟩)
      (fun c x w h => ⟨_, _, _, (Props.C11_satisfy_with v f p _ w).2.2 c x h⟩) rfl
  | token v t =>
    refine acc_item (fun c => decide (c = t)) (fun w => ⟨_, _, (Props.C11_token v t _ w).1⟩) ?_ ?_ rfl
    · intro c x w h
      obtain rfl := of_decide_eq_true h
      exact ⟨_, _, (Props.C11_token v c _ w).2.1 x⟩
    · exact fun c x w h => ⟨_, _, _, (Props.C11_token v t _ w).2.2 c x (of_decide_eq_false h)⟩
  | notToken v t =>
    refine acc_item (fun c => decide (c ≠ t)) (fun w => ⟨_, _, (Props.C11_not_token v t _ w).1⟩) ?_ ?_ rfl
    · exact fun c x w h => ⟨_, _, (Props.C11_not_token v t _ w).2.1 c x (of_decide_eq_true h)⟩
    · intro c x w h
      obtain rfl := Classical.not_not.mp (of_decide_eq_false h)
      exact ⟨_, _, _, (Props.C11_not_token v c _ w).2.2 x⟩
  | peek =>
    intro x w
    cases x with
    | nil => dsimp only; rw [(Props.C11_peek _ w).2.2.1]; exact .data rfl
    | cons c x => dsimp only; rw [(Props.C11_peek _ w).2.2.2]; exact .data rfl
  | peekNext =>
    intro x w
    cases x with
    | nil => dsimp only; rw [(Props.C11_peek _ w).1]; exact .incomplete ((not_not _ _).mpr (.inr ⟨rfl, rfl⟩))
    | cons c x =>
      dsimp only
      rw [(Props.C11_peek _ w).2.1]
      exact .data ((not_not _ _).mpr (.inl ⟨x, rfl, rfl⟩))
  | take n => exact acc_take N n
  | takeWhile f => exact acc_takeWhile f
  | takeWhile1 v f => exact acc_takeWhile1 v f
  | takeTill f => exact acc_takeTill f
  | takeRemainder => exact acc_takeRemainder
  | string v s => exact acc_string N v s
  | eof v =>
    intro x w
    dsimp only
    rw [Props.C18_eof]
    cases x with
    | nil => exact .data (.inr ⟨rfl, rfl⟩)
    | cons c x => exact .error (.inl ⟨x, rfl, rfl⟩)
  | option t _ ih => exact acc_option (det_sem hd _) ih t
  | or _ _ ih1 ih2 => exact acc_or (det_sem hd _) ih1 ih2
  | count n _ ih =>
    have := acc_repeated hd ih (min := n) (max := some n) (fun m h => by cases h; omega)
      fun i w o ho => Props.C25_count n _ i w o ho
    rw [repeated, Nat.sub_self] at this
    exact this
  | many _ ih =>
    exact acc_repeated hd ih (min := 0) (max := none) nofun fun i w o ho => Props.C23_many _ i w o ho
  | many1 _ ih =>
    exact acc_repeated hd ih (min := 1) (max := none) nofun fun i w o ho => Props.C24_many1 _ i w o ho
  | skipMany _ ih =>
    exact acc_drop (acc_repeated hd ih (min := 0) (max := none) nofun
      fun i w o ho => Props.C23_many _ i w o ho) fun i w => (Props.C28_skip_many_unbounded _ i w).1
  | skipMany1 _ ih =>
    exact acc_drop (acc_repeated hd ih (min := 1) (max := none) nofun
      fun i w o ho => Props.C24_many1 _ i w o ho) fun i w => (Props.C28_skip_many_unbounded _ i w).2
  | sepBy conv _ _ ih1 ih2 =>
    exact acc_congr sem_sep (acc_sep (det_sem hd _) (det_seq (det_sem hd _) (det_sem hd _)) ih1
      (acc_sepThen (det_sem hd _) ih1 ih2 conv) (Nat.zero_le _)
      fun i w o ho => Props.C31_sep_by conv _ _ i w o ho)
  | sepBy1 conv _ _ ih1 ih2 =>
    exact acc_congr sem_sep1 (acc_sep (det_sem hd _) (det_seq (det_sem hd _) (det_sem hd _)) ih1
      (acc_sepThen (det_sem hd _) ih1 ih2 conv) (Nat.le_refl _)
      fun i w o ho => Props.C32_sep_by1 conv _ _ i w o ho)
  | manyTill _ _ ih1 ih2 =>
    exact acc_congr (sem_till (det_sem hd _)) (acc_till (det_sem hd _) (det_sem hd _) ih1 ih2
      fun i w o ho => Props.C33_many_till _ _ i w o ho)
  | matchedBy _ ih => exact acc_matchedBy (ends_sem he _) ih
  | lookAhead _ ih => exact acc_lookAhead ih
  | boundedFrom n _ ih =>
    exact acc_repeated hd ih (max := none) nofun fun i w o ho => Props.C24_many_from n _ i w o ho
  | boundedTo n _ ih =>
    exact acc_repeated hd ih (fun m h => Nat.zero_le _) fun i w o ho => Props.C26_many_to n _ i w o ho
  | boundedRange m n h _ ih =>
    exact acc_repeated hd ih (fun m h => by cases h; omega)
      fun i w o ho => Props.C26_many_range m n h _ i w o ho
  | boundedExactly n _ ih =>
    exact acc_repeated hd ih (fun m h => by cases h; omega)
      fun i w o ho => Props.C25_count n _ i w o ho
  | skipFrom n _ ih =>
    exact acc_drop (acc_repeated hd ih (max := none) nofun fun i w o ho => Props.C24_many_from n _ i w o ho)
      fun i w => Props.C28_skip_many (.from_ n) _ trivial i w
  | skipTo n _ ih =>
    exact acc_drop (acc_repeated hd ih (fun m h => Nat.zero_le _) fun i w o ho => Props.C26_many_to n _ i w o ho)
      fun i w => Props.C28_skip_many (.to n) _ trivial i w
  | skipRange m n h _ ih =>
    exact acc_drop (acc_repeated hd ih (fun m h => by cases h; omega)
      fun i w o ho => Props.C26_many_range m n h _ i w o ho)
      fun i w => Props.C28_skip_many (.range m n) _ h i w
  | tillFrom n _ _ ih1 ih2 => exact acc_tillFrom hd ih1 ih2 n
  | tillExactly n _ _ ih1 ih2 => exact acc_tillExactly hd ih1 ih2 n
  | tillRange m n h _ _ ih1 ih2 => exact acc_tillRange hd ih1 ih2 m n h
  | not e _ ih => exact acc_not ih e

theorem matches_det (G : K → Peg K I) (e : Peg K I) : Det (Matches G e) := by
  intro x o o' h h'
  obtain ⟨m, h⟩ := matches_iff.mp h
  obtain ⟨n, h'⟩ := matches_iff.mp h'
  exact det_sem (upto_det G (max m n)) e _ _ _ (sem_mono (upto_mono G (Nat.le_max_left ..)) _ _ _ h)
    (sem_mono (upto_mono G (Nat.le_max_right ..)) _ _ _ h')

theorem matches_ends (G : K → Peg K I) (e : Peg K I) : Ends (Matches G e) := by
  intro x y h
  obtain ⟨m, h⟩ := matches_iff.mp h
  exact ends_sem (upto_ends G m) e _ _ h

theorem sem_iff {G : K → Peg K I} {e : Peg K I} {x : List I} {o : Option (List I)} :
    Sem (fun k => Matches G (.call k)) e x o ↔ Matches G e x o := by
  refine ⟨sem_matches (fun _ _ _ h => h) _ _ _, fun h => ?_⟩
  obtain ⟨n, h⟩ := matches_iff.mp h
  exact sem_mono (fun k x o h => matches_iff.mpr ⟨n, h⟩) _ _ _ h

theorem means_acc {G : K → Peg K I} {F : Fns σ I T E → Fns σ I T E}
    (hF : ∀ k, Shows (fun q => F q k) (G k)) {p : Fns σ I T E} (hp : Means F p) (k : K) :
    Acc (p k) (Matches G (.call k)) := by
  have key : ∀ n k, Acc (nested F n k) (upto G n k) := by
    intro n
    induction n with
    | zero => exact fun _ _ _ => .div fun _ h => h
    | succ n ih => exact fun k => shows_acc (upto_det G n) (upto_ends G n) ih (hF k)
  intro x w
  by_cases hd : p k ⟨.endOfInput, x⟩ w = .div
  · rw [hd]
    refine .div fun o ho => ?_
    obtain ⟨n, h⟩ := matches_iff.mp ho
    have h1 := key n k x w
    match hr : nested F n k ⟨.endOfInput, x⟩ w, h1 with
    | .ok r, _ => exact absurd (((hp k _ w (.ok r) nofun).mpr ⟨n, hr⟩).symm.trans hd) nofun
    | .div, .div h' => exact h' _ h
  · obtain ⟨n, hn⟩ := (hp k _ w _ hd).mp rfl
    have h := key n k x w
    rw [hn] at h
    generalize p k ⟨.endOfInput, x⟩ w = r at h hd
    cases h with
    | data h => exact .data (matches_iff.mpr ⟨n, h⟩)
    | error h => exact .error (matches_iff.mpr ⟨n, h⟩)
    | incomplete h => exact .incomplete (matches_iff.mpr ⟨n, h⟩)
    | div h => exact absurd rfl hd

/-- A parser written like `e` does what `e` says. -/
theorem shows_matches {G : K → Peg K I} {F : Fns σ I T E → Fns σ I T E}
    (hF : ∀ k, Shows (fun q => F q k) (G k)) {p : Fns σ I T E} (hp : Means F p) {T' E' : Type}
    {x : Fns σ I T E → Parser σ I T' E'} {e : Peg K I} (hx : Shows x e) : Acc (x p) (Matches G e) :=
  acc_congr (fun _ _ => sem_iff)
    (shows_acc (fun _ => matches_det G _) (fun _ => matches_ends G _) (means_acc hF hp) hx)

theorem takeWhile1_all {v : Bool} {f : I → Bool} {i j : Input I} {b : List I} {w w' : σ}
    (h : Parsers.takeWhile1 v f i w = .ok (.data j b, w')) : ∀ c ∈ b, f c = true := by
  rw [Parsers.takeWhile1_eq] at h
  obtain ⟨m, s⟩ := i
  cases s with
  | nil => cases m <;> simp at h
  | cons c s =>
    dsimp only at h
    split at h
    · simp at h
    · split at h
      · simp at h
      · simp only [Res.ok.injEq, Prod.mk.injEq, ParseResult.data.injEq] at h
        rw [← h.1.2]
        exact List.all_eq_true.mp List.all_takeWhile

/-- The number of a slice, or zero if there is something else than digits in it. -/
def digits (N : Ascii.Num T') (b : List UInt8) : Res T' :=
  if b.all Ascii.isDigit then Ascii.toDecimal N b else .ok (N.fromU8 0)

theorem digits_returns {N : Ascii.Num T'} (ht : Total N) (hc : Computes N) (b : List UInt8) :
    AlwaysReturns (M.lift (digits N b) : M σ T') := by
  intro w
  unfold digits
  split
  case isTrue h =>
    have h1 := Built.toDecimal_ne_panic ht b (N.fromU8 0) (List.all_eq_true.mp h)
    have h2 := Productive.toDecimal_ne hc b (N.fromU8 0)
    cases hr : Ascii.toDecimal N b with
    | ok x => exact ⟨x, w, rfl⟩
    | panic => exact absurd hr h1
    | ub => exact absurd hr h2.2
    | div => exact absurd hr h2.1
  case isFalse => exact ⟨_, w, rfl⟩

theorem decimal_eq (v : Bool) (N : Ascii.Num T') :
    (Ascii.decimal v N : Parser σ UInt8 T' (Error UInt8)) =
      Closures.map (Parsers.takeWhile1 v Ascii.isDigit) fun b => M.lift (digits N b) := by
  funext i w
  unfold Ascii.decimal Parser.bind Closures.map
  rw [M.bind_apply, M.bind_apply]
  cases hr : Parsers.takeWhile1 v Ascii.isDigit i w with
  | ok x =>
    obtain ⟨x, w'⟩ := x
    cases x with
    | data j b =>
      have e : digits N b = Ascii.toDecimal N b :=
        if_pos (List.all_eq_true.mpr (takeWhile1_all hr))
      simp only [Res.bind_ok, ParseResult.bind, ParseResult.map]
      rw [e]
      cases Ascii.toDecimal N b <;> rfl
    | error b e => rfl
    | incomplete n => rfl
  | _ => rfl

/-- Every expression is written by some parser. -/
theorem expressible (e : Peg K I) : ∃ x : Fns σ I (fun _ : K => Unit) (fun _ => Error I) →
    Parser σ I Unit (Error I), (∀ a, Body a x) ∧ Shows x e := by
  induction e with
  | empty => exact ⟨_, fun a => .const (.ret ()), .ret ()⟩
  | item f =>
    exact ⟨_, fun a => .map (fun _ => ()) (.const (.satisfy true f)), .map _ (.satisfy true f)⟩
  | call k => exact ⟨_, fun a => .call k, .call k⟩
  | seq a b iha ihb =>
    obtain ⟨x, hx, sx⟩ := iha
    obtain ⟨y, hy, sy⟩ := ihb
    exact ⟨_, fun a => .andThen (conv := id) (hx a) (hy a), .andThen sx sy⟩
  | alt a b iha ihb =>
    obtain ⟨x, hx, sx⟩ := iha
    obtain ⟨y, hy, sy⟩ := ihb
    exact ⟨_, fun a => .or (hx a) (hy a), .or sx sy⟩
  | star a ih =>
    obtain ⟨x, hx, sx⟩ := ih
    exact ⟨_, fun a => .skipMany (hx a), .skipMany sx⟩
  | not a ih =>
    obtain ⟨x, hx, sx⟩ := ih
    refine ⟨_, fun a => .bind (.option none (.map some (.lookAhead (hx a)))) fun o => ?_,
      .not .unexpected sx⟩
    cases o with
    | none => exact .const (.ret ())
    | some _ => exact .const (.err _)

end Chomp.Peg
