import Verif.Spec.WellFormed
import Verif.Lemmas.Peg

/-
The check on grammars: what it looks for, it finds; and what it finds is what makes recursion end.
-/

namespace Chomp.Peg

open Spec Spec.Peg

variable {K : Type} {σ I : Type} {T E : K → Type}

/-! ### Rounds -/

theorem countP_lt {p q : K → Bool} (h : ∀ k, p k = true → q k = true) {k : K} (hp : p k = false)
    (hq : q k = true) : ∀ l : List K, k ∈ l → l.countP p < l.countP q := by
  have le : ∀ l : List K, l.countP p ≤ l.countP q := fun l => List.countP_mono_left fun k _ => h k
  intro l
  induction l with
  | nil => exact nofun
  | cons a l ih =>
    intro hm
    rcases List.mem_cons.mp hm with rfl | hm
    · rw [List.countP_cons_of_neg (by rw [hp]; nofun), List.countP_cons_of_pos hq]
      exact Nat.lt_succ_of_le (le l)
    · have := ih hm
      rw [List.countP_cons, List.countP_cons]
      cases ha : p a with
      | true => rw [h a ha]; simp; omega
      | false => cases q a <;> simp <;> omega

/-- A set which gets smaller in each round does not change after as many rounds as it has elements. -/
theorem rounds_stable {names : List K} (hn : ∀ k, k ∈ names) {f : (K → Bool) → K → Bool} {s : K → Bool}
    (hd : ∀ n k, rounds f (n + 1) s k = true → rounds f n s k = true) :
    f (rounds f names.length s) = rounds f names.length s := by
  have key : ∀ n, f (rounds f n s) = rounds f n s ∨ names.countP (rounds f n s) + n ≤ names.length := by
    intro n
    induction n with
    | zero => exact .inr List.countP_le_length
    | succ n ih =>
      rcases ih with ih | ih
      · left
        exact congrArg f ih
      · by_cases h : ∃ k, rounds f n s k = true ∧ rounds f (n + 1) s k = false
        · obtain ⟨k, h1, h2⟩ := h
          have := countP_lt (hd n) h2 h1 names (hn k)
          right; omega
        · left
          have e : rounds f (n + 1) s = rounds f n s := by
            funext k
            match h1 : rounds f n s k, h2 : rounds f (n + 1) s k with
            | true, true => rfl
            | false, false => rfl
            | true, false => exact absurd ⟨k, h1, h2⟩ h
            | false, true => exact absurd (hd n k h2) (by rw [h1]; nofun)
          exact congrArg f e
  rcases key names.length with h | h
  · exact h
  · have h0 : names.countP (rounds f names.length s) = 0 := by omega
    have hf : ∀ k, rounds f names.length s k = false := fun k =>
      Bool.eq_false_iff.mpr (List.countP_eq_zero.mp h0 k (hn k))
    funext k
    rw [hf k]
    refine Bool.eq_false_iff.mpr fun h1 => ?_
    have := hd _ k h1
    rw [hf k] at this
    cases this

theorem rounds_not (f : (K → Bool) → K → Bool) (s : K → Bool) (n : Nat) :
    rounds (fun t k => !f (fun j => !t j) k) n (fun k => !s k) = fun k => !rounds f n s k := by
  induction n with
  | zero => rfl
  | succ n ih =>
    unfold rounds
    rw [ih]
    funext k
    simp only [Bool.not_not]

/-- The same for one which gets larger. -/
theorem rounds_stable' {names : List K} (hn : ∀ k, k ∈ names) {f : (K → Bool) → K → Bool} {s : K → Bool}
    (hd : ∀ n k, rounds f n s k = true → rounds f (n + 1) s k = true) :
    f (rounds f names.length s) = rounds f names.length s := by
  have := rounds_stable hn (f := fun t k => !f (fun j => !t j) k) (s := fun k => !s k) (by
    intro n k
    rw [rounds_not, rounds_not]
    dsimp only
    have := hd n k
    cases h : rounds f n s k with
    | true => rw [this h]; exact id
    | false => exact fun _ => rfl)
  rw [rounds_not] at this
  funext k
  have := congrFun this k
  simp only [Bool.not_not] at this
  exact Bool.not_inj this

theorem rounds_fixed {f : A → A} {s : A} {n : Nat} (h : f (rounds f n s) = rounds f n s) :
    ∀ m, rounds f (n + m) s = rounds f n s := by
  intro m
  induction m with
  | zero => rfl
  | succ m ih =>
    show f (rounds f (n + m) s) = _
    rw [ih, h]

/-! ### Larger sets -/

theorem consumes_mono {u u' : K → Bool} (h : ∀ k, u k = true → u' k = true) (e : Peg K I) :
    e.consumes u = true → e.consumes u' = true := by
  induction e with
  | empty => exact id
  | item f => exact id
  | call k => exact h k
  | seq a b iha ihb =>
    simp only [consumes, Bool.or_eq_true]
    exact Or.imp iha ihb
  | alt a b iha ihb =>
    simp only [consumes, Bool.and_eq_true]
    exact And.imp iha ihb
  | star a => exact id
  | not a => exact id

theorem guarded_mono {u u' : K → Bool} (h : ∀ k, u k = true → u' k = true) (e : Peg K I) :
    ∀ {ok ok' : K → Bool}, (∀ k, ok k = true → ok' k = true) →
      e.guarded u ok = true → e.guarded u' ok' = true := by
  induction e with
  | empty => exact fun _ => id
  | item f => exact fun _ => id
  | call k => exact fun h => h k
  | seq a b iha ihb =>
    intro ok ok' ho
    simp only [guarded, Bool.and_eq_true]
    refine And.imp (iha ho) (ihb fun k => ?_)
    simp only [Bool.or_eq_true]
    exact Or.imp (consumes_mono h a) (ho k)
  | alt a b iha ihb =>
    intro ok ok' ho
    simp only [guarded, Bool.and_eq_true]
    exact And.imp (iha ho) (ihb ho)
  | star a ih =>
    intro ok ok' ho
    simp only [guarded, Bool.and_eq_true]
    exact And.imp (ih ho) (consumes_mono h a)
  | not a ih => exact fun ho => ih ho

/-! ### The check -/

theorem consuming_eq {names : List K} (hn : ∀ k, k ∈ names) (G : K → Peg K I) (k : K) :
    (G k).consumes (consuming names G) = consuming names G k := by
  refine congrFun (rounds_stable hn (f := fun u k => (G k).consumes u) (s := fun _ => true) fun n => ?_) k
  induction n with
  | zero => exact fun _ _ => rfl
  | succ n ih => exact fun k => consumes_mono ih (G k)

theorem consuming_greatest {G : K → Peg K I} {u : K → Bool}
    (hu : ∀ k, u k = true → (G k).consumes u = true) (names : List K) (k : K) :
    u k = true → consuming names G k = true := by
  have : ∀ n k, u k = true → rounds (fun u k => (G k).consumes u) n (fun _ => true) k = true := by
    intro n
    induction n with
    | zero => exact fun _ _ => rfl
    | succ n ih => exact fun k h => consumes_mono ih (G k) (hu k h)
  exact this _ k

/-- The nonterminals accepted in the first `n` rounds. -/
def accepted (names : List K) (G : K → Peg K I) (n : Nat) : K → Bool :=
  rounds (fun ok k => (G k).guarded (consuming names G) ok) n (fun _ => false)

theorem accepted_grows (names : List K) (G : K → Peg K I) (n : Nat) :
    ∀ k, accepted names G n k = true → accepted names G (n + 1) k = true := by
  induction n with
  | zero => exact nofun
  | succ n ih => exact fun k => guarded_mono (fun _ => id) (G k) ih

theorem accepted_le (names : List K) (G : K → Peg K I) {m n : Nat} (h : m ≤ n) (k : K)
    (hk : accepted names G m k = true) : accepted names G n k = true := by
  induction h with
  | refl => exact hk
  | step _ ih => exact accepted_grows names G _ k ih

/-- The number of rounds before a nonterminal is accepted. -/
def rank (names : List K) (G : K → Peg K I) (k : K) : Nat :=
  (List.range names.length).findIdx fun m => accepted names G (m + 1) k

theorem rank_lt {names : List K} {G : K → Peg K I} {n : Nat} (h : n ≤ names.length) {k : K}
    (hk : accepted names G n k = true) : rank names G k < n := by
  cases n with
  | zero => cases hk
  | succ n =>
    refine Nat.lt_succ_of_le (Nat.le_of_not_lt fun hlt => ?_)
    have := List.not_of_lt_findIdx hlt
    rw [List.getElem_range] at this
    rw [hk] at this
    cases this

theorem rank_accepted {names : List K} {G : K → Peg K I} {k : K} (h : rank names G k < names.length) :
    accepted names G (rank names G k + 1) k = true := by
  have h' : (List.range names.length).findIdx (fun m => accepted names G (m + 1) k) <
      (List.range names.length).length := by rw [List.length_range]; exact h
  have := List.findIdx_getElem (w := h')
  rwa [List.getElem_range] at this

theorem wellFormed_ranked {names : List K} (hn : ∀ k, k ∈ names) {G : K → Peg K I}
    (h : wellFormed names G = true) :
    Ranked G (consuming names G) (rank names G) ∧ ∀ k, rank names G k < names.length := by
  have ha : ∀ k, accepted names G names.length k = true := fun k => List.all_eq_true.mp h k (hn k)
  have hr : ∀ k, rank names G k < names.length := fun k => rank_lt (Nat.le_refl _) (ha k)
  refine ⟨fun k => ⟨fun hk => by rw [consuming_eq hn, hk], ?_⟩, hr⟩
  refine guarded_mono (fun _ => id) (G k) (fun j hj => ?_) (rank_accepted (hr k))
  exact decide_eq_true (rank_lt (Nat.le_of_lt (hr k)) hj)

theorem ranked_wellFormed {names : List K} (hn : ∀ k, k ∈ names) {G : K → Peg K I} {u : K → Bool}
    {rk : K → Nat} (h : Ranked G u rk) : wellFormed names G = true := by
  have hu := consuming_greatest (fun k => (h k).1) names
  have ha : ∀ n k, rk k < n → accepted names G n k = true := by
    intro n
    induction n with
    | zero => intro k h; omega
    | succ n ih =>
      intro k hk
      refine guarded_mono hu (G k) (fun j hj => ?_) (h k).2
      exact ih j (by have := of_decide_eq_true hj; omega)
  have hs := rounds_stable' hn (accepted_grows names G)
  refine List.all_eq_true.mpr fun k _ => ?_
  have h1 := accepted_le names G (Nat.le_add_left (rk k + 1) names.length) k (ha _ k (Nat.lt_succ_self _))
  rw [show accepted names G (names.length + (rk k + 1)) = _ from rounds_fixed hs _] at h1
  exact h1

/-! ### From expressions to parsers -/

/-- The functions which may be called. -/
def below (rk : K → Nat) (g : Option Nat) : K → Bool := fun k =>
  match g with
  | none => true
  | some r => decide (rk k < r)

theorem below_after (rk : K → Nat) (g : Option Nat) (c : Bool) :
    (fun k => c || below rk g k) = below rk (if c then none else g) := by
  funext k
  cases c <;> rfl

theorem guarded_times {u : K → Bool} {ok : K → Bool} {a t : Peg K I} {n : Nat} (hn : 0 < n)
    (h : (times a n t).guarded u ok = true) : a.guarded u ok = true := by
  cases n with
  | zero => omega
  | succ n =>
    simp only [times, guarded, Bool.and_eq_true] at h
    exact h.1

theorem consumes_times {u : K → Bool} {a t : Peg K I} {n : Nat} (ht : t.consumes u = false)
    (h : (times a n t).consumes u = true) : a.consumes u = true ∧ 0 < n := by
  induction n with
  | zero => exact absurd h (by rw [times, ht]; nofun)
  | succ n ih =>
    simp only [times, consumes, Bool.or_eq_true] at h
    rcases h with h | h
    · exact ⟨h, Nat.succ_pos n⟩
    · exact ⟨(ih h).1, Nat.succ_pos n⟩

theorem star_of_times {u : K → Bool} {a : Peg K I} {n : Nat} :
    ∀ {ok : K → Bool}, (times a n (.star a)).guarded u ok = true → a.consumes u = true := by
  induction n with
  | zero =>
    intro ok h
    simp only [times, guarded, Bool.and_eq_true] at h
    exact h.2
  | succ n ih =>
    intro ok h
    simp only [times, guarded, Bool.and_eq_true] at h
    exact ih h.2

theorem upTo_consumes {u : K → Bool} {a : Peg K I} (n : Nat) : (upTo a n).consumes u = false := by
  cases n with
  | zero => rfl
  | succ n => simp [upTo, opt, consumes]

theorem upTo_guarded {u : K → Bool} {ok : K → Bool} {a : Peg K I} {n : Nat} (hn : 0 < n)
    (h : (upTo a n).guarded u ok = true) : a.guarded u ok = true := by
  cases n with
  | zero => omega
  | succ n =>
    simp only [upTo, opt, guarded, Bool.and_eq_true] at h
    exact h.1.1

theorem literal_consumes [DecidableEq I] {u : K → Bool} (s : List I) :
    (literal (K := K) s).consumes u = !s.isEmpty := by
  cases s <;> rfl

/-- Nothing is called if there is to be nothing. -/
theorem core_none (p : Parser σ I U N) : Rep.core (Collect.vec U) p 0 (some 0) = Parser.ret [] := by
  funext i w
  show loop _ _ w = _
  rw [loop_apply]
  rfl

theorem core_none' (p : Parser σ I U N) : Rep.core (Rep.unit U) p 0 (some 0) = Parser.ret () := by
  funext i w
  show loop _ _ w = _
  rw [loop_apply]
  rfl

theorem less {u : K → Bool} {rk : K → Nat} {g : Option Nat} {c c' : Bool}
    {x : Fns σ I T E → Parser σ I T' E'} (h : Guarded u rk g c x) (hc : c' = true → c = true) :
    Guarded u rk g c' x :=
  .weaken h (fun r hr => ⟨r, hr, Nat.le_refl r⟩) hc

theorem closure {g : M σ A} (h : AlwaysReturns g) : Closure g := by
  intro w
  obtain ⟨a, w', e⟩ := h w
  rw [e]
  exact ⟨nofun, nofun⟩

/-- A parser which is not called. -/
def wanting : Parser σ I T' E' := fun i => pure (i.incomplete 1)

section Till

variable {u : K → Bool} {rk : K → Nat} {a b : Peg K I} {x : Fns σ I T E → Parser σ I T1 E1}
  {y : Fns σ I T E → Parser σ I T2 E2}
  (ihx : ∀ {g : Option Nat}, a.guarded u (below rk g) = true → Guarded u rk g (a.consumes u) x)
  (ihy : ∀ {g : Option Nat}, b.guarded u (below rk g) = true → Guarded u rk g (b.consumes u) y)

include ihx ihy

theorem guarded_tillFrom (n : Nat) : ∀ {g : Option Nat}, (Peg.till a b n none).guarded u (below rk g) = true →
    Guarded u rk g ((Peg.till a b n none).consumes u)
      (fun q => Bounded.manyTill (.from_ n) (Collect.vec T1) (x q) (y q)) := by
  induction n with
  | zero =>
    intro g h
    simp only [till, times, guarded, consumes, Bool.and_eq_true, Bool.false_or] at h
    rw [show (fun q => Bounded.manyTill (.from_ 0) (Collect.vec T1) (x q) (y q)) = _ from
      funext fun q => (Props.C71_many_till_from 0 (x q) (y q)).1]
    exact less (.manyTill _ (h.1.2 ▸ ihx h.1.1.2) (ihy h.2)) (by simp [till, times, consumes])
  | succ n ih =>
    intro g h
    rw [show Peg.till a b (n + 1) none = .seq a (.till a b n none) from rfl] at h ⊢
    rw [show (fun q => Bounded.manyTill (.from_ (n + 1)) (Collect.vec T1) (x q) (y q)) = _ from
      funext fun q => (Props.C71_many_till_from n (x q) (y q)).2]
    simp only [guarded, Bool.and_eq_true, below_after] at h
    exact .bind (ihx h.1) fun t => .map _ (ih h.2)

theorem guarded_tillExactly (n k : Nat) : ∀ {g : Option Nat},
    (times a n (tillUpTo a b (k - k))).guarded u (below rk g) = true →
    Guarded u rk g ((times a n (tillUpTo a b (k - k))).consumes u)
      (fun q => Bounded.manyTill (.exactly n) (Collect.vec T1) (x q) (y q)) := by
  induction n with
  | zero =>
    intro g h
    rw [Nat.sub_self] at h ⊢
    rw [show (fun q => Bounded.manyTill (.exactly 0) (Collect.vec T1) (x q) (y q)) =
      fun q => Bounded.manyTill (.exactly 0) (Collect.vec T1) wanting (y q) from
      funext fun q => funext fun i => funext fun w => by
        rw [(Props.C71_many_till_exactly 0 (x q) (y q)).1,
          (Props.C71_many_till_exactly 0 wanting (y q)).1]]
    exact .boundedManyTill _ _ (.inr True.intro) (.const (.incomplete 1 (Nat.le_refl 1))) (ihy h)
  | succ n ih =>
    intro g h
    rw [show (fun q => Bounded.manyTill (.exactly (n + 1)) (Collect.vec T1) (x q) (y q)) = _ from
      funext fun q => (Props.C71_many_till_exactly n (x q) (y q)).2]
    simp only [times, guarded, Bool.and_eq_true, below_after] at h
    exact .bind (ihx h.1) fun t => .map _ (ih h.2)

theorem guarded_tillRange (m n : Nat) (hmn : m < n) : ∀ {g : Option Nat},
    (Peg.till a b m (some (n - 1))).guarded u (below rk g) = true →
    Guarded u rk g ((Peg.till a b m (some (n - 1))).consumes u)
      (fun q => Bounded.manyTill (.range m n) (Collect.vec T1) (x q) (y q)) := by
  induction m generalizing n with
  | zero =>
    intro g
    obtain ⟨k, rfl⟩ : ∃ k, n = k + 1 := ⟨n - 1, by omega⟩
    show (tillUpTo a b k).guarded u (below rk g) = true → Guarded u rk g ((tillUpTo a b k).consumes u) _
    intro h
    cases k with
    | zero =>
      rw [show (fun q => Bounded.manyTill (.range 0 (0 + 1)) (Collect.vec T1) (x q) (y q)) =
        fun q => Bounded.manyTill (.range 0 1) (Collect.vec T1) wanting (y q) from
        funext fun q => funext fun i => funext fun w => by
          rw [(Props.C71_many_till_range 0 1 0 (by omega) (x q) (y q)).2.2,
            (Props.C71_many_till_range 0 1 0 (by omega) wanting (y q)).2.2]]
      exact .boundedManyTill _ _ (.inr True.intro) (.const (.incomplete 1 (Nat.le_refl 1))) (ihy h)
    | succ k =>
      simp only [tillUpTo, guarded, Bool.and_eq_true] at h
      refine less (.boundedManyTill _ _ (.inr True.intro) (ihx h.2.1) (ihy h.1)) fun hc => ?_
      simp only [tillUpTo, consumes, Bool.and_eq_true] at hc
      exact hc.1
  | succ m ih =>
    intro g h
    obtain ⟨k, rfl⟩ : ∃ k, n = k + 1 := ⟨n - 1, by omega⟩
    have e : Peg.till a b (m + 1) (some (k + 1 - 1)) = .seq a (Peg.till a b m (some (k - 1))) := by
      show times a (m + 1) (tillUpTo a b (k + 1 - 1 - (m + 1))) = .seq a (times a m (tillUpTo a b (k - 1 - m)))
      rw [show k + 1 - 1 - (m + 1) = k - 1 - m by omega]
      rfl
    rw [e] at h ⊢
    rw [show (fun q => Bounded.manyTill (.range (m + 1) (k + 1)) (Collect.vec T1) (x q) (y q)) = _ from
      funext fun q => (Props.C71_many_till_range m k 0 (by omega) (x q) (y q)).1]
    simp only [guarded, Bool.and_eq_true, below_after] at h
    exact .bind (ihx h.1) fun t => .map _ (ih k (by omega) h.2)

end Till

/-- A parser written like a guarded expression is guarded. -/
theorem shows_guarded {u : K → Bool} {rk : K → Nat} {x : Fns σ I T E → Parser σ I T' E'} {e : Peg K I}
    (h : Shows x e) : ∀ {g : Option Nat}, e.guarded u (below rk g) = true →
      Guarded u rk g (e.consumes u) x := by
  induction h with
  | call k =>
    intro g h
    refine .call k fun r hr => ?_
    subst hr
    exact of_decide_eq_true h
  | ret t => exact fun _ => .const (.ret t)
  | err e => exact fun _ => .const (.weaken (.err e))
  | incomplete n hn => exact fun _ => .const (.weaken (.incomplete n hn))
  | bind _ _ iha ihb =>
    intro g h
    simp only [guarded, Bool.and_eq_true, below_after] at h
    exact .bind (iha h.1) fun t => ihb t h.2
  | andThen _ _ iha ihb =>
    intro g h
    simp only [guarded, Bool.and_eq_true, below_after] at h
    exact .andThen (iha h.1) (ihb h.2)
  | map f _ ih => exact fun h => .map f (ih h)
  | mapErr f _ ih => exact fun h => .mapErr f (ih h)
  | mapM f hf _ ih => exact fun h => .mapM f (fun t => closure (hf t)) (ih h)
  | inspect f hf _ ih => exact fun h => .inspect f (fun t => closure (hf t)) (ih h)
  | any => exact fun _ => .const .any
  | satisfy v f => exact fun _ => .const (.satisfy v f)
  | satisfyWith v f p => exact fun _ => .const (.satisfyWith v f p)
  | token v t => exact fun _ => .const (.token v t)
  | notToken v t => exact fun _ => .const (.notToken v t)
  | peek => exact fun _ => .const .peek
  | peekNext => exact fun _ => .const .peekNext
  | take n =>
    exact fun _ => less (.const (.take n)) fun h => decide_eq_true (consumes_times rfl h).2
  | takeWhile f => exact fun _ => .const (.takeWhile f)
  | takeWhile1 v f => exact fun _ => .const (.takeWhile1 v f)
  | takeTill f => exact fun _ => .const (.takeTill f)
  | takeRemainder => exact fun _ => .const .takeRemainder
  | string v s => exact fun _ => less (.const (.string v s)) fun h => by rwa [literal_consumes] at h
  | eof v => exact fun _ => .const (.eof v)
  | option t _ ih =>
    intro g h
    simp only [opt, guarded, Bool.and_eq_true] at h
    exact less (.option t (ih h.1)) (by simp [opt, consumes])
  | or _ _ iha ihb =>
    intro g h
    simp only [guarded, Bool.and_eq_true] at h
    exact .or (iha h.1) (ihb h.2)
  | count n _ ih =>
    intro g h
    by_cases hn : 0 < n
    · refine less (.count n _ (ih (guarded_times hn h))) fun h => ?_
      rw [(consumes_times rfl h).1, decide_eq_true hn]
      rfl
    · obtain rfl : n = 0 := by omega
      rw [show (fun q => Comb.count 0 _ _) = fun _ => _ from
        funext fun q => (Rep.many_eq (r := .exactly 0) (by exact True.intro) _ _).trans (core_none _)]
      exact .const (.ret _)
  | many _ ih =>
    intro g h
    simp only [guarded, Bool.and_eq_true] at h
    exact .many _ (h.2 ▸ ih h.1)
  | many1 _ ih =>
    intro g h
    simp only [guarded, Bool.and_eq_true] at h
    exact less (.many1 _ (h.2.2 ▸ ih h.1)) fun _ => rfl
  | skipMany _ ih =>
    intro g h
    simp only [guarded, Bool.and_eq_true] at h
    exact .skipMany (h.2 ▸ ih h.1)
  | skipMany1 _ ih =>
    intro g h
    simp only [guarded, Bool.and_eq_true] at h
    exact less (.skipMany1 (h.2.2 ▸ ih h.1)) fun _ => rfl
  | sepBy conv _ _ iha ihs =>
    intro g h
    simp only [opt, guarded, consumes, Bool.and_eq_true, Bool.or_eq_true, below_after] at h
    exact less (.sepBy conv _ h.1.2.2.symm (iha h.1.1) (ihs h.1.2.1.1)) (by simp [opt, consumes])
  | sepBy1 conv _ _ iha ihs =>
    intro g h
    simp only [guarded, consumes, Bool.and_eq_true, Bool.or_eq_true, below_after] at h
    exact less (.sepBy1 conv _ h.2.2.symm (iha h.1) (ihs h.2.1.1)) (by simp [consumes])
  | manyTill _ _ iha ihb =>
    intro g h
    simp only [guarded, consumes, Bool.and_eq_true, Bool.false_or] at h
    exact less (.manyTill _ (h.1.2 ▸ iha h.1.1.2) (ihb h.2)) (by simp [consumes])
  | matchedBy _ ih => exact fun h => .matchedBy (ih h)
  | lookAhead _ ih => exact fun h => .lookAhead (ih h)
  | @boundedFrom _ _ a n _ _ ih =>
    intro g h
    have hc := star_of_times h
    have hg : a.guarded u (below rk g) = true := by
      by_cases hn : 0 < n
      · exact guarded_times hn h
      · obtain rfl : n = 0 := by omega
        simp only [repeated, times, guarded, Bool.and_eq_true] at h
        exact h.1
    refine less (.boundedMany (.from_ n) _ (.inl hc) (ih hg)) fun h => ?_
    rw [hc]
    exact decide_eq_true (consumes_times rfl h).2
  | boundedTo n _ ih =>
    intro g h
    by_cases hn : 0 < n - 1
    · refine less (.boundedMany (.to n) _ (.inr True.intro) (ih (upTo_guarded hn h))) fun h => ?_
      exact absurd h (by rw [show repeated _ 0 (some (n - 1)) = upTo _ (n - 1) from rfl, upTo_consumes]; nofun)
    · have hn : n - 1 = 0 := by omega
      rw [show (fun q => Bounded.many (.to n) _ _) = fun _ => _ from
        funext fun q => (Rep.many_eq (r := .to n) (by exact True.intro) _ _).trans
          ((show Rep.core _ _ 0 (some (n - 1)) = Rep.core _ _ 0 (some 0) from by rw [hn]).trans (core_none _))]
      refine less (.const (.ret _)) fun h => ?_
      exact absurd h (by rw [show repeated _ 0 (some (n - 1)) = upTo _ (n - 1) from rfl, upTo_consumes]; nofun)
  | @boundedRange _ _ a m n _ hmn _ ih =>
    intro g h
    by_cases hz : m = 0 ∧ n = 1
    · obtain ⟨rfl, rfl⟩ := hz
      rw [show (fun q => Bounded.many (.range 0 1) _ _) = fun _ => _ from
        funext fun q => (Rep.many_eq (r := .range 0 1) (Nat.zero_le 1) _ _).trans (core_none _)]
      exact .const (.ret _)
    · have hg : a.guarded u (below rk g) = true := by
        by_cases hm : 0 < m
        · exact guarded_times hm h
        · obtain rfl : m = 0 := by omega
          exact upTo_guarded (by omega) h
      refine less (.boundedMany (.range m n) _ (.inr True.intro) (ih hg)) fun h => ?_
      have := consumes_times (upTo_consumes _) h
      rw [this.1]
      have h1 : 1 < n := by omega
      simp [needsOne, this.2, h1]
  | @boundedExactly _ _ a n _ _ ih =>
    intro g h
    have e : repeated a n (some n) = times a n .empty := by unfold repeated; simp only [Nat.sub_self]; rfl
    rw [e] at h ⊢
    by_cases hn : 0 < n
    · refine less (.boundedMany (.exactly n) _ (.inr True.intro) (ih (guarded_times hn h))) fun h => ?_
      rw [(consumes_times rfl h).1]
      exact decide_eq_true hn
    · obtain rfl : n = 0 := by omega
      rw [show (fun q => Bounded.many (.exactly 0) _ _) = fun _ => _ from
        funext fun q => (Rep.many_eq (r := .exactly 0) (by exact True.intro) _ _).trans (core_none _)]
      exact .const (.ret _)
  | @skipFrom _ _ a n _ _ ih =>
    intro g h
    have hc := star_of_times h
    have hg : a.guarded u (below rk g) = true := by
      by_cases hn : 0 < n
      · exact guarded_times hn h
      · obtain rfl : n = 0 := by omega
        simp only [repeated, times, guarded, Bool.and_eq_true] at h
        exact h.1
    refine less (.boundedSkipMany (.from_ n) (.inl hc) (ih hg)) fun h => ?_
    rw [hc]
    exact decide_eq_true (consumes_times rfl h).2
  | skipTo n _ ih =>
    intro g h
    by_cases hn : 0 < n - 1
    · refine less (.boundedSkipMany (.to n) (.inr True.intro) (ih (upTo_guarded hn h))) fun h => ?_
      exact absurd h (by rw [show repeated _ 0 (some (n - 1)) = upTo _ (n - 1) from rfl, upTo_consumes]; nofun)
    · have hn : n - 1 = 0 := by omega
      rw [show (fun q => Bounded.skipMany (.to n) _) = fun _ => _ from
        funext fun q => (Rep.skipMany_eq (r := .to n) (by exact True.intro) _).trans
          ((show Rep.core _ _ 0 (some (n - 1)) = Rep.core _ _ 0 (some 0) from by rw [hn]).trans (core_none' _))]
      refine less (.const (.ret _)) fun h => ?_
      exact absurd h (by rw [show repeated _ 0 (some (n - 1)) = upTo _ (n - 1) from rfl, upTo_consumes]; nofun)
  | @skipRange _ _ a m n _ hmn _ ih =>
    intro g h
    by_cases hz : m = 0 ∧ n = 1
    · obtain ⟨rfl, rfl⟩ := hz
      rw [show (fun q => Bounded.skipMany (.range 0 1) _) = fun _ => _ from
        funext fun q => (Rep.skipMany_eq (r := .range 0 1) (Nat.zero_le 0) _).trans (core_none' _)]
      exact .const (.ret _)
    · have hg : a.guarded u (below rk g) = true := by
        by_cases hm : 0 < m
        · exact guarded_times hm h
        · obtain rfl : m = 0 := by omega
          exact upTo_guarded (by omega) h
      refine less (.boundedSkipMany (.range m n) (.inr True.intro) (ih hg)) fun h => ?_
      have := consumes_times (upTo_consumes _) h
      rw [this.1]
      have h1 : 1 < n := by omega
      simp [needsOne, this.2, h1]
  | tillFrom n _ _ iha ihb => exact guarded_tillFrom iha ihb n
  | tillExactly n _ _ iha ihb => exact guarded_tillExactly iha ihb n n
  | tillRange m n h _ _ iha ihb => exact guarded_tillRange iha ihb m n h
  | not e _ ih =>
    intro g h
    refine .bind (c := false) (d := false) (.option _ (.map _ (.lookAhead (ih h)))) fun o => ?_
    cases o with
    | none => exact .const (.ret ())
    | some _ => exact .const (.weaken (.err _))

theorem returns_no_panic {A : Type} {f : T' → M σ A} (hf : ∀ t, AlwaysReturns (f t)) (t : T') (w : σ) :
    f t w ≠ .panic := by
  obtain ⟨a, w', h⟩ := hf t w
  rw [h]
  exact nofun

/-- Parsers written like expressions are assembled from parts of the library which do not panic. -/
theorem shows_body {x : Fns σ I T E → Parser σ I T' E'} {e : Peg K I} (h : Shows x e) :
    Body panicFree x := by
  induction h with
  | call k => exact .call k
  | ret t => exact .const (.ret t)
  | err e => exact .const (.err e)
  | incomplete n hn => exact .const (.incomplete n hn)
  | bind _ _ iha ihb => exact .bind iha ihb
  | andThen _ _ iha ihb => exact .andThen iha ihb
  | map f _ ih => exact .map f ih
  | mapErr f _ ih => exact .mapErr f ih
  | mapM f hf _ ih => exact .mapM f (fun _ => returns_no_panic hf) ih
  | inspect f hf _ ih => exact .inspect f (fun _ => returns_no_panic hf) ih
  | any => exact .const .any
  | satisfy v f => exact .const (.satisfy v f)
  | satisfyWith v f p => exact .const (.satisfyWith v f p)
  | token v t => exact .const (.token v t)
  | notToken v t => exact .const (.notToken v t)
  | peek => exact .const (.peek rfl)
  | peekNext => exact .const .peekNext
  | take n => exact .const (.take n)
  | takeWhile f => exact .const (.takeWhile f)
  | takeWhile1 v f => exact .const (.takeWhile1 v f)
  | takeTill f => exact .const (.takeTill f)
  | takeRemainder => exact .const (.takeRemainder rfl)
  | string v s => exact .const (.string v s)
  | eof v => exact .const (.eof v rfl)
  | option t _ ih => exact .option t ih
  | or _ _ iha ihb => exact .or iha ihb
  | count n _ ih => exact .count n _ ih
  | many _ ih => exact .many _ ih
  | many1 _ ih => exact .many1 _ ih
  | skipMany _ ih => exact .skipMany ih
  | skipMany1 _ ih => exact .skipMany1 ih
  | sepBy conv _ _ iha ihs => exact .sepBy conv _ iha ihs
  | sepBy1 conv _ _ iha ihs => exact .sepBy1 conv _ iha ihs
  | manyTill _ _ iha ihb => exact .manyTill _ nofun iha ihb
  | matchedBy _ ih => exact .matchedBy ih
  | lookAhead _ ih => exact .lookAhead ih
  | boundedFrom n _ ih => exact .boundedMany _ _ (fun _ => trivial) ih
  | boundedTo n _ ih => exact .boundedMany _ _ (fun _ => trivial) ih
  | boundedRange m n h _ ih => exact .boundedMany _ _ (fun _ => Nat.le_of_lt h) ih
  | boundedExactly n _ ih => exact .boundedMany _ _ (fun _ => trivial) ih
  | skipFrom n _ ih => exact .boundedSkipMany _ (fun _ => trivial) ih
  | skipTo n _ ih => exact .boundedSkipMany _ (fun _ => trivial) ih
  | skipRange m n h _ ih => exact .boundedSkipMany _ (fun _ => Nat.le_of_lt h) ih
  | tillFrom n _ _ iha ihb => exact .boundedManyTill _ _ rfl (fun _ => trivial) iha ihb
  | tillExactly n _ _ iha ihb => exact .boundedManyTill _ _ rfl (fun _ => trivial) iha ihb
  | tillRange m n h _ _ iha ihb => exact .boundedManyTill _ _ rfl (fun _ => h) iha ihb
  | not e _ ih =>
    refine .bind (.option _ (.map _ (.lookAhead ih))) fun o => ?_
    cases o with
    | none => exact .const (.ret ())
    | some _ => exact .const (.err _)

/-- After the check the bodies are guarded. -/
theorem checked {names : List K} (hn : ∀ k, k ∈ names) {G : K → Peg K I} (hG : wellFormed names G = true)
    {F : Fns σ I T E → Fns σ I T E} (hF : ∀ k, Shows (fun q => F q k) (G k)) (k : K) :
    Guarded (consuming names G) (rank names G) (some (rank names G k)) (consuming names G k)
      (fun q => F q k) :=
  have h := (wellFormed_ranked hn hG).1 k
  less (shows_guarded (hF k) h.2) h.1

end Chomp.Peg
