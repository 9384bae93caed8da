import Verif.Spec.Rules
import Verif.Lemmas.Peg
import Verif.Props.Items

/-
Lemmas on grammars with values. `Sem N r` is the meaning of the rule `r` as a relation between inputs and
outcomes, if the meaning of the nonterminals is `N`.
-/

namespace Chomp.Rules

open Spec Spec.Rule

/-- Relations between inputs and outcomes. -/
abbrev Rel (I T : Type) : Type := List I → Option (T × List I) → Prop

def RetR (t : T) : Rel I T := fun x o => o = some (t, x)

def ItemR (f : I → Option T) : Rel I T
  | [], o => o = none
  | c :: x, o => o = (f c).map fun t => (t, x)

def BindR (R : Rel I U) (S : U → Rel I T) : Rel I T := fun x o =>
  (∃ u y, R x (some (u, y)) ∧ S u y o) ∨ R x none ∧ o = none

def AltR (R S : Rel I T) : Rel I T := fun x o => (∃ r, R x (some r) ∧ o = some r) ∨ R x none ∧ S x o

/-- `R` gives some values, one after the other. -/
inductive Iter (R : Rel I U) : List U → List I → List I → Prop
  | nil : Iter R [] x x
  | cons : R x (some (u, y)) → Iter R us y z → Iter R (u :: us) x z

def StarR (R : Rel I U) : Rel I (List U) := fun x o => ∃ us y, Iter R us x y ∧ R y none ∧ o = some (us, y)

def AndR (R : Rel I T) : Rel I T := fun x o =>
  (∃ t y, R x (some (t, y)) ∧ o = some (t, x)) ∨ R x none ∧ o = none

def NotR (R : Rel I U) : Rel I Unit := fun x o => (∃ r, R x (some r) ∧ o = none) ∨ R x none ∧ o = some ((), x)

def SliceR (R : Rel I U) : Rel I (List I × U) := fun x o =>
  (∃ s t y, x = s ++ y ∧ R x (some (t, y)) ∧ o = some ((s, t), y)) ∨ R x none ∧ o = none

def scanF (f : S → I → Option S) : S → List I → Option ((List I × S) × List I)
  | _, [] => none
  | s, c :: x =>
    match f s c with
    | none => some (([], s), c :: x)
    | some s' => (scanF f s' x).map fun o => ((c :: o.1.1, o.1.2), o.2)

def ScanR (s : S) (f : S → I → Option S) : Rel I (List I × S) := fun x o => o = scanF f s x

variable {K : Type} {V : K → Type} {I : Type}

def Sem (N : ∀ k, Rel I (V k)) : {T : Type} → Rule K V I T → Rel I T
  | _, .ret t => RetR t
  | _, .fail => fun _ o => o = none
  | _, .item f => ItemR f
  | _, .call k => N k
  | _, .bind a b => BindR (Sem N a) fun u => Sem N (b u)
  | _, .alt a b => AltR (Sem N a) (Sem N b)
  | _, .star a => StarR (Sem N a)
  | _, .and a => AndR (Sem N a)
  | _, .not a => NotR (Sem N a)
  | _, .slice a => SliceR (Sem N a)
  | _, .scan s f => ScanR s f

/-- There is at most one outcome. -/
def Det (R : Rel I T) : Prop := ∀ x o o', R x o → R x o' → o = o'

/-- What is left is an end of the input. -/
def Ends (R : Rel I T) : Prop := ∀ x t y, R x (some (t, y)) → ∃ z, x = z ++ y

theorem det_bind {R : Rel I U} {S : U → Rel I T} (hR : Det R) (hS : ∀ u, Det (S u)) : Det (BindR R S) := by
  rintro x o o' (⟨u, y, h1, h2⟩ | ⟨h1, rfl⟩) (⟨u', y', h1', h2'⟩ | ⟨h1', rfl⟩)
  · cases hR _ _ _ h1 h1'; exact hS _ _ _ _ h2 h2'
  · cases hR _ _ _ h1 h1'
  · cases hR _ _ _ h1 h1'
  · rfl

theorem det_alt {R S : Rel I T} (hR : Det R) (hS : Det S) : Det (AltR R S) := by
  rintro x o o' (⟨y, h1, rfl⟩ | ⟨h1, h2⟩) (⟨y', h1', rfl⟩ | ⟨h1', h2'⟩)
  · cases hR _ _ _ h1 h1'; rfl
  · cases hR _ _ _ h1 h1'
  · cases hR _ _ _ h1 h1'
  · exact hS _ _ _ h2 h2'

theorem det_and {R : Rel I T} (hR : Det R) : Det (AndR R) := by
  rintro x o o' (⟨t, y, h1, rfl⟩ | ⟨h1, rfl⟩) (⟨t', y', h1', rfl⟩ | ⟨h1', rfl⟩)
  · cases hR _ _ _ h1 h1'; rfl
  · cases hR _ _ _ h1 h1'
  · cases hR _ _ _ h1 h1'
  · rfl

theorem det_not {R : Rel I T} (hR : Det R) : Det (NotR R) := by
  rintro x o o' (⟨y, h1, rfl⟩ | ⟨h1, rfl⟩) (⟨y', h1', rfl⟩ | ⟨h1', rfl⟩)
  · rfl
  · cases hR _ _ _ h1 h1'
  · cases hR _ _ _ h1 h1'
  · rfl

theorem det_slice {R : Rel I T} (hR : Det R) : Det (SliceR R) := by
  rintro x o o' (⟨s, t, y, e, h1, rfl⟩ | ⟨h1, rfl⟩) (⟨s', t', y', e', h1', rfl⟩ | ⟨h1', rfl⟩)
  · cases hR _ _ _ h1 h1'
    rw [e] at e'
    cases List.append_cancel_right e'
    rfl
  · cases hR _ _ _ h1 h1'
  · cases hR _ _ _ h1 h1'
  · rfl

theorem iter_det {R : Rel I U} (hR : Det R) {us us' : List U} {x y y' : List I} (h : Iter R us x y)
    (h' : Iter R us' x y') (he : R y none) (he' : R y' none) : us = us' ∧ y = y' := by
  induction h generalizing us' with
  | nil =>
    cases h' with
    | nil => exact ⟨rfl, rfl⟩
    | cons h _ => cases hR _ _ _ he h
  | cons h _ ih =>
    cases h' with
    | nil => cases hR _ _ _ h he'
    | cons h1 h2 =>
      cases hR _ _ _ h h1
      obtain ⟨rfl, rfl⟩ := ih h2 he
      exact ⟨rfl, rfl⟩

theorem det_star {R : Rel I U} (hR : Det R) : Det (StarR R) := by
  rintro x o o' ⟨us, y, h1, h2, rfl⟩ ⟨us', y', h1', h2', rfl⟩
  obtain ⟨rfl, rfl⟩ := iter_det hR h1 h1' h2 h2'
  rfl

theorem det_sem {N : ∀ k, Rel I (V k)} (hN : ∀ k, Det (N k)) (r : Rule K V I T) : Det (Sem N r) := by
  induction r with
  | ret t => rintro x o o' h h'; exact Eq.trans h (Eq.symm h')
  | fail => rintro x o o' h h'; exact Eq.trans h (Eq.symm h')
  | item f =>
    rintro x o o' h h'
    cases x with
    | nil => exact Eq.trans h (Eq.symm h')
    | cons c x => exact Eq.trans h (Eq.symm h')
  | call k => exact hN k
  | bind a b iha ihb => exact det_bind iha ihb
  | alt a b iha ihb => exact det_alt iha ihb
  | star a ih => exact det_star ih
  | and a ih => exact det_and ih
  | not a ih => exact det_not ih
  | slice a ih => exact det_slice ih
  | scan s f => rintro x o o' h h'; exact Eq.trans h (Eq.symm h')

theorem Iter.snoc {R : Rel I U} {us : List U} {u : U} {x y z : List I} (h : Iter R us x y)
    (hz : R y (some (u, z))) : Iter R (us ++ [u]) x z := by
  induction h with
  | nil => exact .cons hz .nil
  | cons h _ ih => exact .cons h (ih hz)

theorem Iter.ends {R : Rel I U} (hR : Ends R) {us : List U} {x y : List I} (h : Iter R us x y) :
    ∃ z, x = z ++ y := by
  induction h with
  | nil => exact ⟨[], rfl⟩
  | cons h _ ih =>
    obtain ⟨z, rfl⟩ := ih
    obtain ⟨z', rfl⟩ := hR _ _ _ h
    exact ⟨z' ++ z, (List.append_assoc ..).symm⟩

theorem scan_ends (f : S → I → Option S) : ∀ (x : List I) (s : S) (t : List I × S) (y : List I),
    scanF f s x = some (t, y) → ∃ z, x = z ++ y := by
  intro x
  induction x with
  | nil => intro s t y h; cases h
  | cons c x ih =>
    intro s t y h
    unfold scanF at h
    cases hc : f s c with
    | none => rw [hc] at h; cases h; exact ⟨[], rfl⟩
    | some s' =>
      rw [hc] at h
      dsimp only at h
      cases hs : scanF f s' x with
      | none => rw [hs] at h; cases h
      | some o =>
        rw [hs] at h
        cases h
        obtain ⟨z, hz⟩ := ih s' _ _ hs
        exact ⟨c :: z, congrArg _ hz⟩

theorem ends_sem {N : ∀ k, Rel I (V k)} (hN : ∀ k, Ends (N k)) (r : Rule K V I T) : Ends (Sem N r) := by
  induction r with
  | ret t => rintro x t y h; cases h; exact ⟨[], rfl⟩
  | fail => rintro x t y h; cases h
  | item f =>
    rintro x t y h
    cases x with
    | nil => cases h
    | cons c x =>
      change _ = (f c).map _ at h
      cases hf : f c with
      | none => rw [hf] at h; cases h
      | some t => rw [hf] at h; cases h; exact ⟨[c], rfl⟩
  | call k => exact hN k
  | bind a b iha ihb =>
    rintro x t y (⟨u, z, h1, h2⟩ | ⟨_, h⟩)
    · obtain ⟨z1, rfl⟩ := iha _ _ _ h1
      obtain ⟨z2, rfl⟩ := ihb _ _ _ _ h2
      exact ⟨z1 ++ z2, (List.append_assoc ..).symm⟩
    · cases h
  | alt a b iha ihb =>
    rintro x t y (⟨z, h1, h2⟩ | ⟨_, h⟩)
    · cases h2; exact iha _ _ _ h1
    · exact ihb _ _ _ h
  | star a ih =>
    rintro x t y ⟨n, z, h, _, h2⟩
    cases h2
    exact h.ends ih
  | and a ih =>
    rintro x t y (⟨_, z, h1, h2⟩ | ⟨_, h⟩)
    · cases h2; exact ⟨[], rfl⟩
    · cases h
  | not a ih =>
    rintro x t y (⟨z, h1, h2⟩ | ⟨_, h⟩)
    · cases h2
    · cases h; exact ⟨[], rfl⟩
  | slice a ih =>
    rintro x t y (⟨s, t, y, h, _, h2⟩ | ⟨_, h⟩)
    · cases h2; exact ⟨s, h⟩
    · cases h
  | scan s f => exact fun x t y h => scan_ends f x s t y (Eq.symm h)

/-- The outcomes which need at most `n` nested nonterminals. -/
def upto (G : ∀ k, Rule K V I (V k)) : Nat → ∀ k, Rel I (V k)
  | 0 => fun _ _ _ => False
  | n + 1 => fun k => Sem (upto G n) (G k)

theorem sem_mono {N N' : ∀ k, Rel I (V k)} (h : ∀ k x o, N k x o → N' k x o) (r : Rule K V I T) :
    ∀ x o, Sem N r x o → Sem N' r x o := by
  induction r with
  | ret t => exact fun _ _ h => h
  | fail => exact fun _ _ h => h
  | item f => exact fun _ _ h => h
  | call k => exact h k
  | bind a b iha ihb =>
    rintro x o (⟨u, y, h1, h2⟩ | ⟨h1, h2⟩)
    · exact .inl ⟨u, y, iha _ _ h1, ihb _ _ _ h2⟩
    · exact .inr ⟨iha _ _ h1, h2⟩
  | alt a b iha ihb =>
    rintro x o (⟨y, h1, h2⟩ | ⟨h1, h2⟩)
    · exact .inl ⟨y, iha _ _ h1, h2⟩
    · exact .inr ⟨iha _ _ h1, ihb _ _ h2⟩
  | star a ih =>
    rintro x o ⟨us, y, h1, h2, h3⟩
    refine ⟨us, y, ?_, ih _ _ h2, h3⟩
    clear h2 h3
    induction h1 with
    | nil => exact .nil
    | cons h _ ih' => exact .cons (ih _ _ h) ih'
  | and a ih =>
    rintro x o (⟨t, y, h1, h2⟩ | ⟨h1, h2⟩)
    · exact .inl ⟨t, y, ih _ _ h1, h2⟩
    · exact .inr ⟨ih _ _ h1, h2⟩
  | not a ih =>
    rintro x o (⟨y, h1, h2⟩ | ⟨h1, h2⟩)
    · exact .inl ⟨y, ih _ _ h1, h2⟩
    · exact .inr ⟨ih _ _ h1, h2⟩
  | slice a ih =>
    rintro x o (⟨s, t, y, e, h1, h2⟩ | ⟨h1, h2⟩)
    · exact .inl ⟨s, t, y, e, ih _ _ h1, h2⟩
    · exact .inr ⟨ih _ _ h1, h2⟩
  | scan s f => exact fun _ _ h => h

theorem upto_mono (G : ∀ k, Rule K V I (V k)) {m n : Nat} (h : m ≤ n) :
    ∀ k x o, upto G m k x o → upto G n k x o := by
  induction m generalizing n with
  | zero => exact fun _ _ _ h => h.elim
  | succ m ih =>
    cases n with
    | zero => omega
    | succ n => exact fun k => sem_mono (ih (by omega)) (G k)

theorem sem_gives {G : ∀ k, Rule K V I (V k)} {N : ∀ k, Rel I (V k)}
    (hN : ∀ k x o, N k x o → Gives G (.call k) x o) (r : Rule K V I T) :
    ∀ x o, Sem N r x o → Gives G r x o := by
  induction r with
  | ret t => intro x o h; cases h; exact .ret
  | fail => intro x o h; cases h; exact .fail
  | item f =>
    intro x o h
    cases x with
    | nil => cases h; exact .item_end
    | cons c x =>
      change _ = (f c).map _ at h
      cases hf : f c with
      | none => rw [hf] at h; cases h; exact .item_other hf
      | some t => rw [hf] at h; cases h; exact .item hf
  | call k => exact hN k
  | bind a b iha ihb =>
    rintro x o (⟨u, y, h1, h2⟩ | ⟨h1, rfl⟩)
    · exact .bind (iha _ _ h1) (ihb _ _ _ h2)
    · exact .bind_fail (iha _ _ h1)
  | alt a b iha ihb =>
    rintro x o (⟨y, h1, rfl⟩ | ⟨h1, h2⟩)
    · exact .alt (iha _ _ h1)
    · exact .alt_second (iha _ _ h1) (ihb _ _ h2)
  | star a ih =>
    rintro x o ⟨us, y, h1, h2, rfl⟩
    induction h1 with
    | nil => exact .star_stop (ih _ _ h2)
    | cons h _ ih' => exact .star (ih _ _ h) (ih' h2)
  | and a ih =>
    rintro x o (⟨t, y, h1, rfl⟩ | ⟨h1, rfl⟩)
    · exact .and (ih _ _ h1)
    · exact .and_fail (ih _ _ h1)
  | not a ih =>
    rintro x o (⟨y, h1, rfl⟩ | ⟨h1, rfl⟩)
    · exact .not (ih _ _ h1)
    · exact .not_fail (ih _ _ h1)
  | slice a ih =>
    rintro x o (⟨s, t, y, rfl, h1, rfl⟩ | ⟨h1, rfl⟩)
    · exact .slice (ih _ _ h1)
    · exact .slice_fail (ih _ _ h1)
  | scan s f =>
    intro x o h
    change o = scanF f s x at h
    subst h
    induction x generalizing s with
    | nil => exact .scan_end
    | cons c x ih =>
      unfold scanF
      cases hc : f s c with
      | none => exact .scan_stop hc
      | some s' =>
        have := ih s'
        dsimp only
        cases hs : scanF f s' x with
        | none => rw [hs] at this; exact .scan_fail hc this
        | some o => rw [hs] at this; exact .scan hc this

theorem gives_iff {G : ∀ k, Rule K V I (V k)} {r : Rule K V I T} {x : List I} {o : Option (T × List I)} :
    Gives G r x o ↔ ∃ n, Sem (upto G n) r x o := by
  constructor
  · intro h
    induction h with
    | ret => exact ⟨0, rfl⟩
    | fail => exact ⟨0, rfl⟩
    | item h => exact ⟨0, by show _ = _; rw [h]; rfl⟩
    | item_other h => exact ⟨0, by show _ = _; rw [h]; rfl⟩
    | item_end => exact ⟨0, rfl⟩
    | call _ ih =>
      obtain ⟨n, h⟩ := ih
      exact ⟨n + 1, h⟩
    | bind _ _ ih1 ih2 =>
      obtain ⟨m, h1⟩ := ih1
      obtain ⟨n, h2⟩ := ih2
      exact ⟨max m n, .inl ⟨_, _, sem_mono (upto_mono G (Nat.le_max_left ..)) _ _ _ h1,
        sem_mono (upto_mono G (Nat.le_max_right ..)) _ _ _ h2⟩⟩
    | bind_fail _ ih =>
      obtain ⟨n, h⟩ := ih
      exact ⟨n, .inr ⟨h, rfl⟩⟩
    | alt _ ih =>
      obtain ⟨n, h⟩ := ih
      exact ⟨n, .inl ⟨_, h, rfl⟩⟩
    | alt_second _ _ ih1 ih2 =>
      obtain ⟨m, h1⟩ := ih1
      obtain ⟨n, h2⟩ := ih2
      exact ⟨max m n, .inr ⟨sem_mono (upto_mono G (Nat.le_max_left ..)) _ _ _ h1,
        sem_mono (upto_mono G (Nat.le_max_right ..)) _ _ _ h2⟩⟩
    | star _ _ ih1 ih2 =>
      obtain ⟨m, h1⟩ := ih1
      obtain ⟨n, h2⟩ := ih2
      have h1 := sem_mono (upto_mono G (Nat.le_max_left m n)) _ _ _ h1
      obtain ⟨us, y, h3, h4, h5⟩ := sem_mono (upto_mono G (Nat.le_max_right m n)) _ _ _ h2
      cases h5
      exact ⟨max m n, _, _, .cons h1 h3, h4, rfl⟩
    | star_stop _ ih =>
      obtain ⟨n, h⟩ := ih
      exact ⟨n, [], _, .nil, h, rfl⟩
    | and _ ih =>
      obtain ⟨n, h⟩ := ih
      exact ⟨n, .inl ⟨_, _, h, rfl⟩⟩
    | and_fail _ ih =>
      obtain ⟨n, h⟩ := ih
      exact ⟨n, .inr ⟨h, rfl⟩⟩
    | not _ ih =>
      obtain ⟨n, h⟩ := ih
      exact ⟨n, .inl ⟨_, h, rfl⟩⟩
    | not_fail _ ih =>
      obtain ⟨n, h⟩ := ih
      exact ⟨n, .inr ⟨h, rfl⟩⟩
    | slice _ ih =>
      obtain ⟨n, h⟩ := ih
      exact ⟨n, .inl ⟨_, _, _, rfl, h, rfl⟩⟩
    | slice_fail _ ih =>
      obtain ⟨n, h⟩ := ih
      exact ⟨n, .inr ⟨h, rfl⟩⟩
    | scan hc _ ih =>
      obtain ⟨_, h⟩ := ih
      exact ⟨0, by
        show _ = scanF _ _ _
        unfold scanF
        rw [hc]
        dsimp only
        rw [← show _ = scanF _ _ _ from h]
        rfl⟩
    | scan_stop hc => exact ⟨0, by show _ = scanF _ _ _; unfold scanF; rw [hc]⟩
    | scan_fail hc _ ih =>
      obtain ⟨_, h⟩ := ih
      exact ⟨0, by
        show _ = scanF _ _ _
        unfold scanF
        rw [hc]
        dsimp only
        rw [← show _ = scanF _ _ _ from h]
        rfl⟩
    | scan_end => exact ⟨0, rfl⟩
  · rintro ⟨n, h⟩
    have keyn : ∀ n k x o, upto G n k x o → Gives G (.call k) x o := by
      intro n
      induction n with
      | zero => exact fun _ _ _ h => h.elim
      | succ n ih => exact fun k x o h => .call (sem_gives ih _ _ _ h)
    exact sem_gives (keyn n) _ _ _ h

theorem upto_det (G : ∀ k, Rule K V I (V k)) (n : Nat) : ∀ k, Det (upto G n k) := by
  induction n with
  | zero => exact fun _ _ _ _ h => h.elim
  | succ n ih => exact fun k => det_sem ih (G k)

theorem upto_ends (G : ∀ k, Rule K V I (V k)) (n : Nat) : ∀ k, Ends (upto G n k) := by
  induction n with
  | zero => exact fun _ _ _ _ h => h.elim
  | succ n ih => exact fun k => ends_sem ih (G k)

theorem Iter.append {R : Rel I U} {us vs : List U} {x y z : List I} (h : Iter R us x y) (h' : Iter R vs y z) :
    Iter R (us ++ vs) x z := by
  induction h with
  | nil => exact h'
  | cons h _ ih => exact .cons h (ih h')

theorem Iter.split {R : Rel I U} {vs : List U} : ∀ {us : List U} {x z : List I}, Iter R (us ++ vs) x z →
    ∃ y, Iter R us x y ∧ Iter R vs y z := by
  intro us
  induction us with
  | nil => exact fun h => ⟨_, .nil, h⟩
  | cons u us ih =>
    intro x z h
    cases h with
    | cons h h' =>
      obtain ⟨y, h1, h2⟩ := ih h'
      exact ⟨y, .cons h h1, h2⟩

/-! ### Parsers -/

/-- `r` is one of the outcomes `R`, or there is none. -/
inductive Fits (R : Option (T × List I) → Prop) : Res (ParseResult I T E × σ) → Prop
  | data : R (some (t, y)) → Fits R (.ok (.data ⟨.endOfInput, y⟩ t, w))
  | error : R none → Fits R (.ok (.error b e, w))
  | incomplete : R none → 1 ≤ n → Fits R (.ok (.incomplete n, w))
  | div : (∀ o, ¬ R o) → Fits R .div

/-- At the end of the input, `p` does what `R` says. -/
def Acc (p : Parser σ I T E) (R : Rel I T) : Prop := ∀ x w, Fits (R x) (p ⟨.endOfInput, x⟩ w)

theorem fits_congr {R S : Option (T × List I) → Prop} (h : ∀ o, R o ↔ S o)
    {r : Res (ParseResult I T E × σ)} (hr : Fits R r) : Fits S r := by
  cases hr with
  | data hr => exact .data ((h _).mp hr)
  | error hr => exact .error ((h _).mp hr)
  | incomplete hr hn => exact .incomplete ((h _).mp hr) hn
  | div hr => exact .div fun o ho => hr o ((h _).mpr ho)

theorem acc_congr {R S : Rel I T} (h : ∀ x o, R x o ↔ S x o) {p : Parser σ I T E} (hp : Acc p R) : Acc p S :=
  fun x w => fits_congr (h x) (hp x w)

theorem fits_bind {x : M σ (ParseResult I T E)} {k : ParseResult I T E → M σ (ParseResult I U E2)} {w : σ}
    {R : Option (T × List I) → Prop} {S : Option (U × List I) → Prop} (h : Fits R (x w))
    (hd : ∀ y t w', R (some (t, y)) → Fits S (k (.data ⟨.endOfInput, y⟩ t) w'))
    (he : R none → ∀ b e w', Fits S (k (.error b e) w'))
    (hi : R none → ∀ n w', 1 ≤ n → Fits S (k (.incomplete n) w'))
    (hdiv : (∀ o, ¬ R o) → ∀ o, ¬ S o) : Fits S ((x >>= k) w) := by
  rw [M.bind_apply]
  generalize x w = r at h
  cases h with
  | data h => exact hd _ _ _ h
  | error h => exact he h _ _ _
  | incomplete h hn => exact hi h _ _ hn
  | div h => exact .div (hdiv h)

/-- From an outcome to the result. -/
theorem Acc.data {p : Parser σ I T E} {R : Rel I T} (hp : Acc p R) (hR : Det R) {x y : List I} {t : T}
    (h : R x (some (t, y))) (w : σ) : ∃ w', p ⟨.endOfInput, x⟩ w = .ok (.data ⟨.endOfInput, y⟩ t, w') := by
  have := hp x w
  generalize p ⟨.endOfInput, x⟩ w = r at this
  cases this with
  | data h' => cases hR _ _ _ h h'; exact ⟨_, rfl⟩
  | error h' => cases hR _ _ _ h h'
  | incomplete h' => cases hR _ _ _ h h'
  | div h' => exact absurd h (h' _)

theorem Acc.fail {p : Parser σ I T E} {R : Rel I T} (hp : Acc p R) (hR : Det R) {x : List I}
    (h : R x none) (w : σ) : (∃ b e w', p ⟨.endOfInput, x⟩ w = .ok (.error b e, w')) ∨
      ∃ n w', p ⟨.endOfInput, x⟩ w = .ok (.incomplete n, w') := by
  have := hp x w
  generalize p ⟨.endOfInput, x⟩ w = r at this
  cases this with
  | data h' => cases hR _ _ _ h h'
  | error h' => exact .inl ⟨_, _, _, rfl⟩
  | incomplete h' => exact .inr ⟨_, _, rfl⟩
  | div h' => exact absurd h (h' _)

/-- From the result to an outcome. -/
theorem Acc.of_data {p : Parser σ I T E} {R : Rel I T} (hp : Acc p R) {x : List I} {w w' : σ} {i : Input I}
    {t : T} (h : p ⟨.endOfInput, x⟩ w = .ok (.data i t, w')) :
    i.mode = .endOfInput ∧ R x (some (t, i.buf)) := by
  have := hp x w
  rw [h] at this
  cases this with
  | data h' => exact ⟨rfl, h'⟩

theorem Acc.of_error {p : Parser σ I T E} {R : Rel I T} (hp : Acc p R) {x : List I} {w w' : σ} {b : List I}
    {e : E} (h : p ⟨.endOfInput, x⟩ w = .ok (.error b e, w')) : R x none := by
  have := hp x w
  rw [h] at this
  cases this with
  | error h' => exact h'

theorem Acc.of_incomplete {p : Parser σ I T E} {R : Rel I T} (hp : Acc p R) {x : List I} {w w' : σ} {n : Nat}
    (h : p ⟨.endOfInput, x⟩ w = .ok (.incomplete n, w')) : R x none := by
  have := hp x w
  rw [h] at this
  cases this with
  | incomplete h' => exact h'

theorem Acc.positive {p : Parser σ I T E} {R : Rel I T} (hp : Acc p R) {x : List I} {w w' : σ} {n : Nat}
    (h : p ⟨.endOfInput, x⟩ w = .ok (.incomplete n, w')) : 1 ≤ n := by
  have := hp x w
  rw [h] at this
  cases this with
  | incomplete _ hn => exact hn

theorem Acc.of_div {p : Parser σ I T E} {R : Rel I T} (hp : Acc p R) {x : List I} {w : σ}
    (h : p ⟨.endOfInput, x⟩ w = .div) (o : Option (T × List I)) : ¬ R x o := by
  have := hp x w
  rw [h] at this
  cases this with
  | div h' => exact h' o

theorem Acc.not_panic {p : Parser σ I T E} {R : Rel I T} (hp : Acc p R) {x : List I} {w : σ} :
    p ⟨.endOfInput, x⟩ w ≠ .panic := by
  intro h
  have := hp x w
  rw [h] at this
  cases this

theorem Acc.not_ub {p : Parser σ I T E} {R : Rel I T} (hp : Acc p R) {x : List I} {w : σ} :
    p ⟨.endOfInput, x⟩ w ≠ .ub := by
  intro h
  have := hp x w
  rw [h] at this
  cases this

theorem acc_bind {R : Rel I T} {S : T → Rel I U} (hR : Det R) {p : Parser σ I T E} (hp : Acc p R) {conv : E → E2}
    {f : T → Parser σ I U E2} (hf : ∀ t, Acc (f t) (S t)) : Acc (Parser.bind conv p f) (BindR R S) := by
  intro x w
  refine fits_bind (hp x w) ?_ ?_ ?_ ?_
  · intro y t w' h
    rw [ParseResult.bind_data]
    refine fits_congr (fun o => ⟨fun ho => .inl ⟨t, y, h, ho⟩, ?_⟩) (hf t y w')
    rintro (⟨t', y', h1, h2⟩ | ⟨h1, _⟩)
    · cases hR _ _ _ h h1; exact h2
    · cases hR _ _ _ h h1
  · exact fun h b e w' => .error (.inr ⟨h, rfl⟩)
  · exact fun h n w' => .incomplete (.inr ⟨h, rfl⟩)
  · rintro h o (⟨t', y', h1, h2⟩ | ⟨h1, _⟩)
    · exact h _ h1
    · exact h _ h1

theorem acc_andThen {R : Rel I T} {S : Rel I U} (hR : Det R) {p : Parser σ I T E} (hp : Acc p R) {conv : E → E2}
    {q : Parser σ I U E2} (hq : Acc q S) : Acc (Parser.andThen conv p q) (BindR R fun _ => S) :=
  acc_bind hR hp (f := fun _ => q) fun _ => hq

/-- The values changed by `f`. -/
abbrev MapR (R : Rel I T) (f : T → U) : Rel I U := BindR R fun t => RetR (f t)

theorem mapR_none {R : Rel I T} {f : T → U} {x : List I} (h : ∀ o, ¬ R x o) (o : Option (U × List I)) :
    ¬ MapR R f x o := by
  rintro (⟨t', y', h1, h2⟩ | ⟨h1, _⟩)
  · exact h _ h1
  · exact h _ h1

theorem acc_mapErr {R : Rel I T} {p : Parser σ I T E} (hp : Acc p R) (f : E → E2) :
    Acc (Parser.mapErr p f) R :=
  fun x w => fits_bind (hp x w) (fun _ _ _ h => .data h) (fun h _ _ _ => .error h)
    (fun h _ _ => .incomplete h) fun h => h

theorem acc_mapM {R : Rel I T} {p : Parser σ I T E} (hp : Acc p R) (f : T → M σ U) (g : T → U)
    (hf : ∀ t w, ∃ w', f t w = .ok (g t, w')) : Acc (Closures.map p f) (MapR R g) := by
  refine fun x w => fits_bind (hp x w) (fun y t w' h => ?_) (fun h _ _ _ => .error (.inr ⟨h, rfl⟩))
    (fun h _ _ => .incomplete (.inr ⟨h, rfl⟩)) mapR_none
  obtain ⟨w1, h1⟩ := hf t w'
  show Fits _ ((f t >>= fun u => pure (.data ⟨.endOfInput, y⟩ u)) w')
  rw [M.bind_ok h1]
  exact .data (.inl ⟨t, y, h, rfl⟩)

theorem acc_map {R : Rel I T} {p : Parser σ I T E} (hp : Acc p R) (f : T → U) :
    Acc (Parser.map p f) (MapR R f) :=
  fun x w => fits_bind (hp x w) (fun _ _ _ h => .data (.inl ⟨_, _, h, rfl⟩)) (fun h _ _ _ => .error (.inr ⟨h, rfl⟩))
    (fun h _ _ => .incomplete (.inr ⟨h, rfl⟩)) mapR_none

theorem acc_inspect {R : Rel I T} {p : Parser σ I T E} (hp : Acc p R) (f : T → M σ Unit)
    (hf : ∀ t, AlwaysReturns (f t)) : Acc (Parser.inspect p f) R := by
  refine fun x w => fits_bind (hp x w) (fun y t w' h => ?_) (fun h _ _ _ => .error h)
    (fun h _ _ => .incomplete h) fun h => h
  obtain ⟨u, w1, h1⟩ := hf t w'
  show Fits _ ((f t >>= fun _ => pure (.data ⟨.endOfInput, y⟩ t)) w')
  rw [M.bind_ok h1]
  exact .data h

theorem acc_or {R S : Rel I T} (hR : Det R) {p q : Parser σ I T E} (hp : Acc p R) (hq : Acc q S) :
    Acc (Comb.or p q) (AltR R S) := by
  have hn : ∀ x, R x none → ∀ o, S x o ↔ AltR R S x o := by
    refine fun x h o => ⟨fun ho => .inr ⟨h, ho⟩, ?_⟩
    rintro (⟨y', h1, h2⟩ | ⟨_, h2⟩)
    · cases hR _ _ _ h h1
    · exact h2
  intro x w
  refine fits_bind (hp x w) ?_ ?_ ?_ ?_
  · exact fun y t w' h => .data (.inl ⟨_, h, rfl⟩)
  · exact fun h b e w' => fits_congr (hn x h) (hq x w')
  · exact fun h n w' _ => fits_congr (hn x h) (hq x w')
  · rintro h o (⟨y', h1, h2⟩ | ⟨h1, _⟩)
    · exact h _ h1
    · exact h _ h1

theorem acc_ret (t : T) : Acc (Parser.ret t : Parser σ I T E) (RetR t) := fun _ _ => .data rfl

theorem acc_err (e : E) : Acc (Parser.err e : Parser σ I T E) (fun _ o => o = none) := fun _ _ => .error rfl

theorem acc_option {R : Rel I T} (hR : Det R) {p : Parser σ I T E} (hp : Acc p R) (t : T) :
    Acc (Comb.option p t) (AltR R (RetR t)) := by
  rw [Props.C20_option_is_or]
  exact acc_or hR hp (acc_ret t)

theorem acc_lookAhead {R : Rel I T} {p : Parser σ I T E} (hp : Acc p R) :
    Acc (Comb.lookAhead p) (AndR R) := by
  intro x w
  refine fits_bind (hp x w) ?_ ?_ ?_ ?_
  · exact fun y t w' h => .data (.inl ⟨t, y, h, rfl⟩)
  · exact fun h b e w' => .error (.inr ⟨h, rfl⟩)
  · exact fun h n w' => .incomplete (.inr ⟨h, rfl⟩)
  · rintro h o (⟨t, y', h1, h2⟩ | ⟨h1, _⟩)
    · exact h _ h1
    · exact h _ h1

theorem acc_matchedBy {R : Rel I T} (hR : Ends R) {p : Parser σ I T E} (hp : Acc p R) :
    Acc (Comb.matchedBy p) (SliceR R) := by
  intro x w
  refine fits_bind (hp x w) ?_ (fun h _ _ _ => .error (.inr ⟨h, rfl⟩))
    (fun h _ _ => .incomplete (.inr ⟨h, rfl⟩)) ?_
  · intro y t w' h
    obtain ⟨z, rfl⟩ := hR _ _ _ h
    have h1 : usub (z ++ y).length y.length = .ok z.length := by
      rw [List.length_append, usub_ok (by omega)]
      congr 1
      omega
    dsimp only
    rw [h1]
    rw [M.bind_ok (x := M.lift (Res.ok z.length)) (a := z.length) (w' := w') rfl,
      M.bind_ok (sliceTo_ok (by simp) w')]
    exact .data (.inl ⟨z, t, y, rfl, h, by simp⟩)
  · rintro h o (⟨_, t, y', _, h1, h2⟩ | ⟨h1, _⟩)
    · exact h _ h1
    · exact h _ h1

/-- `!e` -/
theorem acc_not {R : Rel I T} {p : Parser σ I T E} (hp : Acc p R) (e : E) :
    Acc (Parser.bind id (Comb.option (Parser.map (Comb.lookAhead p) some) none)
      fun o => if o.isSome then Parser.err e else Parser.ret ()) (NotR R) := by
  have step : ∀ {q : Parser σ I (Option T) E} {x w r w'}, q ⟨.endOfInput, x⟩ w = .ok (r, w') →
      Parser.bind id q (fun o => if o.isSome then Parser.err e else Parser.ret ()) ⟨.endOfInput, x⟩ w =
        r.bind id (fun i (o : Option T) => (if o.isSome then Parser.err e else Parser.ret () :
          Parser σ I Unit E) i) w' := fun h => M.bind_ok h
  intro x w
  have := hp x w
  match hr : p ⟨.endOfInput, x⟩ w, this with
  | _, .data (y := y) (t := t) (w := w') h =>
    have h1 := Props.C21_look_ahead_ok p _ _ _ _ _ hr
    have h2 : Parser.map (Comb.lookAhead p) some ⟨.endOfInput, x⟩ w =
        .ok (.data ⟨.endOfInput, x⟩ (some t), w') := M.bind_ok h1
    rw [step (Props.C19_option_ok _ none _ _ _ _ _ h2)]
    exact .error (.inl ⟨_, h, rfl⟩)
  | _, .error (b := b) (e := e1) (w := w') h =>
    have h1 := Props.C21_look_ahead_err p _ _ _ _ _ hr
    have h2 : Parser.map (Comb.lookAhead p) some ⟨.endOfInput, x⟩ w = .ok (.error b e1, w') :=
      M.bind_ok h1
    rw [step (Props.C19_option_err _ none _ _ _ _ _ h2)]
    exact .data (.inr ⟨h, rfl⟩)
  | _, .incomplete (n := n) (w := w') h _ =>
    have h1 := Props.C21_look_ahead_incomplete p _ _ _ _ hr
    have h2 : Parser.map (Comb.lookAhead p) some ⟨.endOfInput, x⟩ w = .ok (.incomplete n, w') :=
      M.bind_ok h1
    rw [step (Props.C19_option_incomplete _ none _ _ _ _ _ h2)]
    exact .data (.inr ⟨h, rfl⟩)
  | _, .div h =>
    have h1 : Comb.lookAhead p ⟨.endOfInput, x⟩ w = .div := Recursive.bind_div hr
    have h2 : Parser.map (Comb.lookAhead p) some ⟨.endOfInput, x⟩ w = .div := Recursive.bind_div h1
    have h3 := (Props.C19_option_crash (Parser.map (Comb.lookAhead p) some) none _ _).2.2 h2
    have h4 : Parser.bind id (Comb.option (Parser.map (Comb.lookAhead p) some) none)
      (fun o => if o.isSome then Parser.err e else Parser.ret ()) ⟨.endOfInput, x⟩ w = .div :=
      Recursive.bind_div h3
    rw [h4]
    refine .div ?_
    rintro o (⟨y, h', _⟩ | ⟨h', _⟩)
    · exact h _ h'
    · exact h _ h'

/-! ### Repetition -/

/-- The meaning of `RepOutcome`. -/
def RepR (R : Rel I U) (min : Nat) (max : Option Nat) : Rel I (List U) := fun x o => ∃ us y, Iter R us x y ∧
  (max = some us.length ∧ o = some (us, y) ∨
    Below us.length max ∧ R y none ∧ o = if min ≤ us.length then some (us, y) else none)

theorem reps_iter {R : Rel I U} {p : Parser σ I U E} (hp : Acc p R) {i i' : Input I} {w w' : σ} {us : List U}
    (h : Reps p i w us i' w') (hi : i.mode = .endOfInput) :
    i'.mode = .endOfInput ∧ Iter R us i.buf i'.buf := by
  induction h with
  | nil => exact ⟨hi, .nil⟩
  | @cons i _ _ _ _ _ _ _ h _ ih =>
    obtain ⟨m, x⟩ := i
    cases hi
    have h1 := hp.of_data h
    have h2 := ih h1.1
    exact ⟨h2.1, .cons h1.2 h2.2⟩

theorem iter_reps {R : Rel I U} (hR : Det R) {p : Parser σ I U E} (hp : Acc p R) {us : List U} {x y : List I}
    (h : Iter R us x y) (w : σ) : ∃ w', Reps p ⟨.endOfInput, x⟩ w us ⟨.endOfInput, y⟩ w' := by
  induction h generalizing w with
  | nil => exact ⟨w, .nil⟩
  | cons h _ ih =>
    obtain ⟨w1, h1⟩ := hp.data hR h w
    obtain ⟨w', h3⟩ := ih w1
    exact ⟨w', .cons h1 h3⟩

/-- A parser which repeats does what the relation says. -/
theorem acc_rep {R : Rel I U} (hR : Det R) {p : Parser σ I U E} (hp : Acc p R) {min : Nat} {max : Option Nat}
    {q : Parser σ I (List U) E} (hq : ∀ i w o, o ≠ .div → (q i w = o ↔ RepOutcome p min max i w o)) :
    Acc q (RepR R min max) := by
  intro x w
  by_cases hd : q ⟨.endOfInput, x⟩ w = .div
  · rw [hd]
    refine .div ?_
    rintro o ⟨us, y, h1, h2⟩
    obtain ⟨w', h3⟩ := iter_reps hR hp h1 w
    have : ∃ r, RepOutcome p min max ⟨.endOfInput, x⟩ w (.ok r) := by
      rcases h2 with ⟨h2, _⟩ | ⟨h2, h4, _⟩
      · exact ⟨_, .full h3 h2⟩
      · by_cases hm : min ≤ us.length
        · rcases hp.fail hR h4 w' with ⟨b, e, w1, h5⟩ | ⟨n, w1, h5⟩
          · exact ⟨_, .stop_error h3 h2 h5 hm⟩
          · exact ⟨_, .stop_last h3 h2 h5 hm rfl⟩
        · rcases hp.fail hR h4 w' with ⟨b, e, w1, h5⟩ | ⟨n, w1, h5⟩
          · exact ⟨_, .error h3 h2 h5 (by omega)⟩
          · exact ⟨_, .incomplete h3 h2 h5 (.inl (by omega))⟩
    obtain ⟨r, h6⟩ := this
    exact absurd (((hq _ _ (.ok r) nofun).mpr h6).symm.trans hd) nofun
  · have h := (hq _ _ _ hd).mp rfl
    generalize q ⟨.endOfInput, x⟩ w = r at h
    cases h with
    | @full us i' _ h hm =>
      obtain ⟨m, y⟩ := i'
      obtain ⟨h1, h2⟩ := reps_iter hp h rfl
      cases h1
      exact .data ⟨_, _, h2, .inl ⟨hm, rfl⟩⟩
    | @stop_error us i' _ _ _ _ h hb hf hm =>
      obtain ⟨m, y⟩ := i'
      obtain ⟨h1, h2⟩ := reps_iter hp h rfl
      cases h1
      exact .data ⟨_, _, h2, .inr ⟨hb, hp.of_error hf, (if_pos hm).symm⟩⟩
    | @stop_last us i' _ _ _ h hb hf hm _ =>
      obtain ⟨m, y⟩ := i'
      obtain ⟨h1, h2⟩ := reps_iter hp h rfl
      cases h1
      exact .data ⟨_, _, h2, .inr ⟨hb, hp.of_incomplete hf, (if_pos hm).symm⟩⟩
    | @error us i' _ _ _ _ h hb hf hm =>
      obtain ⟨m, y⟩ := i'
      obtain ⟨h1, h2⟩ := reps_iter hp h rfl
      cases h1
      exact .error ⟨_, _, h2, .inr ⟨hb, hp.of_error hf, (if_neg (by omega)).symm⟩⟩
    | @incomplete us i' _ _ _ h hb hf hm =>
      obtain ⟨m, y⟩ := i'
      obtain ⟨h1, h2⟩ := reps_iter hp h rfl
      cases h1
      refine .incomplete ⟨_, _, h2, .inr ⟨hb, hp.of_incomplete hf, (if_neg ?_).symm⟩⟩ (hp.positive hf)
      rcases hm with hm | hm
      · omega
      · cases hm
    | @panic us i' _ h _ hf =>
      obtain ⟨m, y⟩ := i'
      cases (reps_iter hp h rfl).1
      exact absurd hf hp.not_panic
    | @ub us i' _ h _ hf =>
      obtain ⟨m, y⟩ := i'
      cases (reps_iter hp h rfl).1
      exact absurd hf hp.not_ub

/-- `a … a r` -/
theorem sem_times (N : ∀ k, Rel I (V k)) (a : Rule K V I U) (r : Rule K V I (List U)) (n : Nat) : ∀ x o,
    Sem N (times a r n) x o ↔
    (∃ us y, us.length = n ∧ Iter (Sem N a) us x y ∧ MapR (Sem N r) (us ++ ·) y o) ∨
      ∃ us y, us.length < n ∧ Iter (Sem N a) us x y ∧ Sem N a y none ∧ o = none := by
  induction n with
  | zero =>
    intro x o
    have e : MapR (Sem N r) ([] ++ ·) x o ↔ Sem N r x o := by
      constructor
      · rintro (⟨t, y, h1, h2⟩ | ⟨h1, rfl⟩)
        · cases h2; exact h1
        · exact h1
      · intro h
        cases o with
        | none => exact .inr ⟨h, rfl⟩
        | some o => exact .inl ⟨o.1, o.2, h, rfl⟩
    refine ⟨fun h => .inl ⟨[], x, rfl, .nil, e.mpr h⟩, ?_⟩
    rintro (⟨us, y, h, h1, h2⟩ | ⟨us, y, h, _⟩)
    · cases h1 with
      | nil => exact e.mp h2
      | cons => cases h
    · omega
  | succ n ih =>
    intro x o
    constructor
    · rintro (⟨u, y, h1, h2⟩ | ⟨h1, rfl⟩)
      · rcases h2 with ⟨ts, z, h2, h3⟩ | ⟨h2, rfl⟩
        · cases h3
          rcases (ih y _).mp h2 with ⟨us, z', h3, h4, h5⟩ | ⟨us, z', h3, h4, h5, h6⟩
          · refine .inl ⟨u :: us, z', by rw [List.length_cons, h3], .cons h1 h4, ?_⟩
            rcases h5 with ⟨t', y', h5, h6⟩ | ⟨_, h6⟩
            · cases h6
              exact .inl ⟨t', _, h5, rfl⟩
            · cases h6
          · cases h6
        · rcases (ih y _).mp h2 with ⟨us, z', h3, h4, h5⟩ | ⟨us, z', h3, h4, h5, h6⟩
          · refine .inl ⟨u :: us, z', by rw [List.length_cons, h3], .cons h1 h4, ?_⟩
            rcases h5 with ⟨t', y', h5, h6⟩ | ⟨h6, _⟩
            · cases h6
            · exact .inr ⟨h6, rfl⟩
          · exact .inr ⟨u :: us, z', by rw [List.length_cons]; omega, .cons h1 h4, h5, rfl⟩
      · exact .inr ⟨[], x, by simp, .nil, h1, rfl⟩
    · rintro (⟨us, y, h, h1, h2⟩ | ⟨us, y, h, h1, h2, rfl⟩)
      · cases h1 with
        | nil => cases h
        | cons h1 h3 =>
          refine .inl ⟨_, _, h1, ?_⟩
          rcases h2 with ⟨ts, z, h2, h4⟩ | ⟨h2, rfl⟩
          · cases h4
            exact .inl ⟨_, z, (ih _ _).mpr (.inl ⟨_, y, Nat.succ.inj h, h3, .inl ⟨ts, z, h2, rfl⟩⟩), rfl⟩
          · exact .inr ⟨(ih _ _).mpr (.inl ⟨_, y, Nat.succ.inj h, h3, .inr ⟨h2, rfl⟩⟩), rfl⟩
      · cases h1 with
        | nil => exact .inr ⟨h2, rfl⟩
        | cons h1 h3 =>
          exact .inl ⟨_, _, h1, .inr ⟨(ih _ _).mpr (.inr ⟨_, y, Nat.lt_of_succ_lt_succ h, h3, h2, rfl⟩), rfl⟩⟩

/-- `(a (a …)?)?` -/
theorem sem_upTo (N : ∀ k, Rel I (V k)) (a : Rule K V I U) (n : Nat) : ∀ x o, Sem N (upTo a n) x o ↔
    ∃ us y, Iter (Sem N a) us x y ∧ (us.length = n ∨ us.length < n ∧ Sem N a y none) ∧ o = some (us, y) := by
  induction n with
  | zero =>
    intro x o
    refine ⟨fun h => ⟨[], x, .nil, .inl rfl, h⟩, ?_⟩
    rintro ⟨us, y, h, h1 | h1, rfl⟩
    · cases h with
      | nil => rfl
      | cons => cases h1
    · omega
  | succ n ih =>
    intro x o
    constructor
    · rintro (⟨z, ⟨u, y, h1, ⟨us, y', h2, h3⟩ | ⟨_, h3⟩⟩ | ⟨h1, h2⟩, rfl⟩ |
        ⟨⟨u, y, h1, ⟨us, y', h2, h3⟩ | ⟨h2, h3⟩⟩ | ⟨h1, _⟩, h3⟩)
      · cases h3
        obtain ⟨us, z', h3, h4, h5⟩ := (ih _ _).mp h2
        cases h5
        exact ⟨u :: us, _, .cons h1 h3, h4.imp (congrArg (· + 1)) (And.imp_left (Nat.succ_lt_succ ·)), rfl⟩
      · cases h3
      · cases h2
      · cases h3
      · obtain ⟨us, z', h3, h4, h5⟩ := (ih _ _).mp h2
        cases h5
      · exact ⟨[], x, .nil, .inr ⟨by simp, h1⟩, h3⟩
    · rintro ⟨us, y, h, h1, rfl⟩
      cases h with
      | nil => exact .inr ⟨.inr ⟨h1.elim nofun And.right, rfl⟩, rfl⟩
      | cons h2 h3 =>
        exact .inl ⟨_, .inl ⟨_, _, h2, .inl ⟨_, y,
          (ih _ _).mpr ⟨_, y, h3, h1.imp Nat.succ.inj (And.imp_left Nat.lt_of_succ_lt_succ), rfl⟩, rfl⟩⟩, rfl⟩

/-- Like `Peg.repeated`. -/
def repeated (a : Rule K V I U) (min : Nat) : Option Nat → Rule K V I (List U)
  | none => times a (.star a) min
  | some max => times a (upTo a (max - min)) min

theorem sem_repeated (N : ∀ k, Rel I (V k)) (a : Rule K V I U) (min : Nat) (max : Option Nat)
    (h : ∀ m, max = some m → min ≤ m) (x : List I) (o : Option (List U × List I)) :
    Sem N (repeated a min max) x o ↔ RepR (Sem N a) min max x o := by
  cases max with
  | none =>
    rw [repeated, sem_times]
    constructor
    · rintro (⟨us, y, h, h1, ⟨_, _, ⟨vs, z, h2, h3, h4⟩, h5⟩ | ⟨⟨_, _, _, _, h2⟩, _⟩⟩ | ⟨us, y, h1, h2, h3, rfl⟩)
      · cases h4
        exact ⟨_, _, h1.append h2, .inr ⟨nofun, h3, h5.trans (if_pos (by rw [List.length_append]; omega)).symm⟩⟩
      · cases h2
      · exact ⟨us, y, h2, .inr ⟨nofun, h3, (if_neg (by omega)).symm⟩⟩
    · rintro ⟨us, y, h1, h2 | ⟨_, h2, rfl⟩⟩
      · cases h2.1
      · by_cases hm : min ≤ us.length
        · rw [if_pos hm]
          rw [← List.take_append_drop min us] at h1
          obtain ⟨z, h3, h4⟩ := h1.split
          exact .inl ⟨_, z, by simp [hm], h3, .inl ⟨_, _, ⟨_, y, h4, h2, rfl⟩, by simp [RetR]⟩⟩
        · rw [if_neg hm]
          exact .inr ⟨us, y, by omega, h1, h2, rfl⟩
  | some m =>
    have hm := h m rfl
    rw [repeated, sem_times]
    constructor
    · rintro (⟨us, y, h, h1, ⟨_, _, h2, h3⟩ | ⟨h2, _⟩⟩ | ⟨us, y, h1, h2, h3, rfl⟩)
      · cases h3
        obtain ⟨vs, z, h3, h4 | ⟨h4, h5⟩, h6⟩ := (sem_upTo ..).mp h2
        · cases h6
          refine ⟨_, _, h1.append h3, .inl ⟨?_, rfl⟩⟩
          rw [List.length_append, h4, h]
          congr 1
          omega
        · cases h6
          exact ⟨_, _, h1.append h3, .inr ⟨fun m' e => by cases e; rw [List.length_append]; omega, h5,
            (if_pos (by rw [List.length_append]; omega)).symm⟩⟩
      · obtain ⟨vs, z, h3, _, h6⟩ := (sem_upTo ..).mp h2
        cases h6
      · exact ⟨us, y, h2, .inr ⟨fun m' e => by cases e; omega, h3, (if_neg (by omega)).symm⟩⟩
    · rintro ⟨us, y, h1, ⟨h2, rfl⟩ | ⟨h2, h3, rfl⟩⟩
      · cases h2
        rw [← List.take_append_drop min us] at h1
        obtain ⟨z, h3, h4⟩ := h1.split
        exact .inl ⟨_, z, by simp [hm], h3, .inl ⟨_, _, (sem_upTo ..).mpr ⟨_, y, h4, .inl (by simp), rfl⟩,
          by simp [RetR]⟩⟩
      · have h2 := h2 m rfl
        by_cases hm : min ≤ us.length
        · rw [if_pos hm]
          rw [← List.take_append_drop min us] at h1
          obtain ⟨z, h4, h5⟩ := h1.split
          exact .inl ⟨_, z, by simp [hm], h4, .inl ⟨_, _, (sem_upTo ..).mpr ⟨_, y, h5,
            .inr ⟨by rw [List.length_drop]; omega, h3⟩, rfl⟩, by simp [RetR]⟩⟩
        · rw [if_neg hm]
          exact .inr ⟨us, y, by omega, h1, h3, rfl⟩

/-- A parser which repeats does what the rule says. -/
theorem acc_repeated {N : ∀ k, Rel I (V k)} (hN : ∀ k, Det (N k)) {a : Rule K V I U} {p : Parser σ I U E}
    (hp : Acc p (Sem N a)) {min : Nat} {max : Option Nat} (hmm : ∀ m, max = some m → min ≤ m)
    {q : Parser σ I (List U) E} (hq : ∀ i w o, o ≠ .div → (q i w = o ↔ RepOutcome p min max i w o)) :
    Acc q (Sem N (repeated a min max)) :=
  acc_congr (fun x o => (sem_repeated N a min max hmm x o).symm) (acc_rep (det_sem hN a) hp hq)

theorem acc_drop {R : Rel I T} {p : Parser σ I T E} (hp : Acc p R) {q : Parser σ I Unit E}
    (h : ∀ i w, q i w = (p i w >>= fun x => .ok (Props.dropValue x.1, x.2))) : Acc q (MapR R fun _ => ()) := by
  intro x w
  rw [h]
  have := hp x w
  generalize p ⟨.endOfInput, x⟩ w = r at this
  cases this with
  | data h => exact .data (.inl ⟨_, _, h, rfl⟩)
  | error h => exact .error (.inr ⟨h, rfl⟩)
  | incomplete h hn => exact .incomplete (.inr ⟨h, rfl⟩) hn
  | div h => exact .div (mapR_none h)

theorem acc_sepThen {R : Rel I U} {S : Rel I V'} (hS : Det S) {p : Parser σ I U E} (hp : Acc p R) {sep : Parser σ I V' N}
    (hs : Acc sep S) (conv : N → E) : Acc (sepThen conv p sep) (BindR S fun _ => R) := by
  have h := acc_andThen (conv := conv) hS hs hp
  intro x w
  have h := h x w
  have e : sepThen conv p sep ⟨.endOfInput, x⟩ w = Parser.andThen conv sep p ⟨.endOfInput, x⟩ w := by
    unfold sepThen Parser.andThen ParseResult.andThen
    rw [M.bind_apply]
    cases sep ⟨.endOfInput, x⟩ w with
    | ok r =>
      obtain ⟨r, w'⟩ := r
      cases r with
      | data i t => simp
      | error b e => rfl
      | incomplete n => rfl
    | panic => rfl
    | ub => rfl
    | div => rfl
  rw [e]
  exact h

/-- The meaning of `SepOutcome`. -/
def SepR (R Q : Rel I U) (min : Nat) : Rel I (List U) := fun x o =>
  (R x none ∧ o = if min = 0 then some ([], x) else none) ∨
  ∃ u y us z, R x (some (u, y)) ∧ Iter Q us y z ∧ Q z none ∧ o = some (u :: us, z)

theorem acc_sep {R Q : Rel I U} (hR : Det R) (hQ : Det Q) {p q : Parser σ I U E} (hp : Acc p R) (hq : Acc q Q)
    {min : Nat} (hmin : min ≤ 1) {r : Parser σ I (List U) E}
    (hr : ∀ i w o, o ≠ .div → (r i w = o ↔ SepOutcome p q min i w o)) : Acc r (SepR R Q min) := by
  intro x w
  by_cases hd : r ⟨.endOfInput, x⟩ w = .div
  · rw [hd]
    refine .div fun o ho => ?_
    have : ∃ r, SepOutcome p q min ⟨.endOfInput, x⟩ w (.ok r) := by
      rcases ho with ⟨h1, _⟩ | ⟨u, y, us, z, h1, h2, h3, _⟩
      · by_cases hm : min = 0
        · rcases hp.fail hR h1 w with ⟨b, e, w1, h5⟩ | ⟨n, w1, h5⟩
          · exact ⟨_, .stop_error .nil h5 (by simp [hm])⟩
          · exact ⟨_, .stop_last .nil h5 (by simp [hm]) rfl⟩
        · rcases hp.fail hR h1 w with ⟨b, e, w1, h5⟩ | ⟨n, w1, h5⟩
          · exact ⟨_, .error .nil h5 (by simp; omega)⟩
          · exact ⟨_, .incomplete .nil h5 (.inl (by simp; omega))⟩
      · obtain ⟨w1, h4⟩ := hp.data hR h1 w
        obtain ⟨w2, h5⟩ := iter_reps hQ hq h2 w1
        rcases hq.fail hQ h3 w2 with ⟨b, e, w1, h6⟩ | ⟨n, w1, h6⟩
        · exact ⟨_, .stop_error (.cons h4 h5) h6 (by simp; omega)⟩
        · exact ⟨_, .stop_last (.cons h4 h5) h6 (by simp; omega) rfl⟩
    obtain ⟨r, h6⟩ := this
    exact absurd (((hr _ _ (.ok r) nofun).mpr h6).symm.trans hd) nofun
  · have h := (hr _ _ _ hd).mp rfl
    generalize r ⟨.endOfInput, x⟩ w = r at h
    have first : ∀ {us i' w'}, SepReps p q ⟨.endOfInput, x⟩ w us i' w' →
        us = [] ∧ i' = ⟨.endOfInput, x⟩ ∧ attempt p q us = p ∨
        ∃ u y vs z, R x (some (u, y)) ∧ Iter Q vs y z ∧ i' = ⟨.endOfInput, z⟩ ∧ us = u :: vs ∧
          attempt p q us = q := by
      intro us i' w' h
      cases h with
      | nil => exact .inl ⟨rfl, rfl, rfl⟩
      | cons h h' =>
        obtain ⟨h1, h2⟩ := hp.of_data h
        obtain ⟨h3, h4⟩ := reps_iter hq h' h1
        obtain ⟨m, z⟩ := i'
        cases h3
        exact .inr ⟨_, _, _, z, h2, h4, rfl, rfl, rfl⟩
    cases h with
    | stop_error h hf hm =>
      rcases first h with ⟨rfl, rfl, e⟩ | ⟨u, y, vs, z, h1, h2, rfl, rfl, e⟩
      · rw [e] at hf
        exact .data (.inl ⟨hp.of_error hf, (if_pos (by simpa using hm)).symm⟩)
      · rw [e] at hf
        exact .data (.inr ⟨u, y, vs, z, h1, h2, hq.of_error hf, rfl⟩)
    | stop_last h hf hm _ =>
      rcases first h with ⟨rfl, rfl, e⟩ | ⟨u, y, vs, z, h1, h2, rfl, rfl, e⟩
      · rw [e] at hf
        exact .data (.inl ⟨hp.of_incomplete hf, (if_pos (by simpa using hm)).symm⟩)
      · rw [e] at hf
        exact .data (.inr ⟨u, y, vs, z, h1, h2, hq.of_incomplete hf, rfl⟩)
    | error h hf hm =>
      rcases first h with ⟨rfl, rfl, e⟩ | ⟨u, y, vs, z, h1, h2, rfl, rfl, e⟩
      · rw [e] at hf
        exact .error (.inl ⟨hp.of_error hf, (if_neg (by simp at hm; omega)).symm⟩)
      · simp at hm; omega
    | incomplete h hf hm =>
      rcases first h with ⟨rfl, rfl, e⟩ | ⟨u, y, vs, z, h1, h2, rfl, rfl, e⟩
      · rw [e] at hf
        refine .incomplete (.inl ⟨hp.of_incomplete hf, (if_neg ?_).symm⟩) (hp.positive hf)
        rcases hm with hm | hm
        · simp at hm; omega
        · cases hm
      · rcases hm with hm | hm
        · simp at hm; omega
        · cases hm
    | panic h hf =>
      rcases first h with ⟨rfl, rfl, e⟩ | ⟨u, y, vs, z, h1, h2, rfl, rfl, e⟩
      · rw [e] at hf; exact absurd hf hp.not_panic
      · rw [e] at hf; exact absurd hf hq.not_panic
    | ub h hf =>
      rcases first h with ⟨rfl, rfl, e⟩ | ⟨u, y, vs, z, h1, h2, rfl, rfl, e⟩
      · rw [e] at hf; exact absurd hf hp.not_ub
      · rw [e] at hf; exact absurd hf hq.not_ub

theorem sem_sep1 {R Q : Rel I U} (x : List I) (o : Option (List U × List I)) :
    SepR R Q 1 x o ↔ BindR R (fun u => MapR (StarR Q) (u :: ·)) x o := by
  constructor
  · rintro (⟨h1, h2⟩ | ⟨u, y, us, z, h1, h2, h3, h4⟩)
    · exact .inr ⟨h1, h2⟩
    · exact .inl ⟨u, y, h1, .inl ⟨us, z, ⟨us, z, h2, h3, rfl⟩, h4⟩⟩
  · rintro (⟨u, y, h1, ⟨_, _, ⟨us, z, h2, h3, h5⟩, h4⟩ | ⟨⟨_, _, _, _, h⟩, _⟩⟩ | ⟨h1, h2⟩)
    · cases h5
      exact .inr ⟨u, y, _, _, h1, h2, h3, h4⟩
    · cases h
    · exact .inl ⟨h1, h2⟩

theorem sem_sep {R Q : Rel I U} (x : List I) (o : Option (List U × List I)) :
    SepR R Q 0 x o ↔ AltR (BindR R (fun u => MapR (StarR Q) (u :: ·))) (RetR []) x o := by
  constructor
  · rintro (⟨h1, h2⟩ | h)
    · exact .inr ⟨.inr ⟨h1, rfl⟩, h2⟩
    · obtain ⟨_, _, _, _, _, _, _, e⟩ := id h
      rw [e] at h ⊢
      exact .inl ⟨_, (sem_sep1 _ _).mp (.inr h), rfl⟩
  · rintro (⟨z, h, rfl⟩ | ⟨h, h2⟩)
    · rcases (sem_sep1 _ _).mpr h with ⟨_, h⟩ | h
      · cases h
      · exact .inr h
    · rcases (sem_sep1 _ _).mpr h with ⟨h, _⟩ | ⟨_, _, _, _, _, _, _, h⟩
      · exact .inl ⟨h, h2⟩
      · cases h

/-! ### `many_till` -/

/-- The meaning of `TillOutcome` without limits. -/
def TillR (R : Rel I U) (Q : Rel I V') : Rel I (List U) := fun x o =>
  ∃ us y, Iter (BindR (NotR Q) fun _ => R) us x y ∧
    ((∃ v z, Q y (some (v, z)) ∧ o = some (us, z)) ∨ Q y none ∧ R y none ∧ o = none)

theorem test_one {Q : Rel I V'} {q : Parser σ I V' N} (hq : Acc q Q) {x : List I} {w w' : σ} {r : Option (Input I)}
    (h : Test q 1 ⟨.endOfInput, x⟩ w r w') :
    (∃ v z, r = some ⟨.endOfInput, z⟩ ∧ Q x (some (v, z))) ∨ r = none ∧ Q x none := by
  cases h with
  | @hit _ _ _ i' v _ h =>
    obtain ⟨h1, h2⟩ := hq.of_data h
    obtain ⟨m, z⟩ := i'
    cases h1
    exact .inl ⟨v, z, rfl, h2⟩
  | miss_error h h' => cases h'; exact .inr ⟨rfl, hq.of_error h⟩
  | miss_incomplete h h' => cases h'; exact .inr ⟨rfl, hq.of_incomplete h⟩

theorem test_fail {Q : Rel I V'} (hQ : Det Q) {q : Parser σ I V' N} (hq : Acc q Q) {x : List I}
    (h : Q x none) (w : σ) : ∃ w', Test q 1 ⟨.endOfInput, x⟩ w none w' := by
  rcases hq.fail hQ h w with ⟨b, e, w1, h5⟩ | ⟨n, w1, h5⟩
  · exact ⟨w1, .miss_error h5 .none⟩
  · exact ⟨w1, .miss_incomplete h5 .none⟩

theorem acc_till {R : Rel I U} {Q : Rel I V'} (hR : Det R) (hQ : Det Q) {p : Parser σ I U E} {q : Parser σ I V' N}
    (hp : Acc p R) (hq : Acc q Q) {r : Parser σ I (List U) E}
    (hr : ∀ i w o, o ≠ .div → (r i w = o ↔ TillOutcome p q 0 none 1 i w o)) : Acc r (TillR R Q) := by
  have tries_one := Peg.tries_one
  intro x w
  by_cases hd : r ⟨.endOfInput, x⟩ w = .div
  · rw [hd]
    refine .div ?_
    rintro o ⟨us, y, h1, h2⟩
    have key : ∀ {us z y}, Iter (BindR (NotR Q) fun _ => R) us z y → ∀ us w1,
        TillRun p q 0 none 1 ⟨.endOfInput, x⟩ w us ⟨.endOfInput, z⟩ w1 →
        ∃ us w1, TillRun p q 0 none 1 ⟨.endOfInput, x⟩ w us ⟨.endOfInput, y⟩ w1 := by
      intro us z y h
      induction h with
      | nil => exact fun us w1 h => ⟨us, w1, h⟩
      | cons h _ ih =>
        intro us w1 hu
        rcases h with ⟨_, z', ⟨_, _, h⟩ | ⟨h3, h4⟩, h5⟩ | ⟨_, h⟩
        · cases h
        · cases h4
          obtain ⟨w2, h6⟩ := test_fail hQ hq h3 w1
          obtain ⟨w3, h7⟩ := hp.data hR h5 w2
          exact ih _ _ (.snoc hu nofun (by rw [tries_one]; exact h6) h7)
        · cases h
    obtain ⟨us, w1, hu⟩ := key h1 [] w .nil
    have : ∃ r, TillOutcome p q 0 none 1 ⟨.endOfInput, x⟩ w (.ok r) := by
      rcases h2 with ⟨v, z, h3, _⟩ | ⟨h3, h4, _⟩
      · obtain ⟨w2, h5⟩ := hq.data hQ h3 w1
        exact ⟨_, .done hu (by rw [tries_one]; exact .hit h5)⟩
      · obtain ⟨w2, h6⟩ := test_fail hQ hq h3 w1
        rcases hp.fail hR h4 w2 with ⟨b, e, w3, h5⟩ | ⟨n, w3, h5⟩
        · exact ⟨_, .error hu nofun (by rw [tries_one]; exact h6) h5⟩
        · exact ⟨_, .incomplete hu nofun (by rw [tries_one]; exact h6) h5⟩
    obtain ⟨r, h6⟩ := this
    exact absurd (((hr _ _ (.ok r) nofun).mpr h6).symm.trans hd) nofun
  · have h := (hr _ _ _ hd).mp rfl
    generalize r ⟨.endOfInput, x⟩ w = r at h
    have run : ∀ {us i' w'}, TillRun p q 0 none 1 ⟨.endOfInput, x⟩ w us i' w' →
        ∃ y, i' = ⟨.endOfInput, y⟩ ∧ Iter (BindR (NotR Q) fun _ => R) us x y := by
      intro us i' w' h
      induction h with
      | nil => exact ⟨x, rfl, .nil⟩
      | @snoc us i' w' w1 i2 u w2 _ _ ht h ih =>
        obtain ⟨y, rfl, h1⟩ := ih
        rw [tries_one] at ht
        rcases test_one hq ht with ⟨_, _, h2, _⟩ | ⟨_, h2⟩
        · cases h2
        · obtain ⟨h3, h4⟩ := hp.of_data h
          obtain ⟨m, z⟩ := i2
          cases h3
          exact ⟨z, rfl, h1.snoc (.inl ⟨(), y, .inr ⟨h2, rfl⟩, h4⟩)⟩
    cases h with
    | done h ht =>
      obtain ⟨y, rfl, h1⟩ := run h
      rw [tries_one] at ht
      rcases test_one hq ht with ⟨v, z, h2, h3⟩ | ⟨h2, _⟩
      · cases h2; exact .data ⟨_, y, h1, .inl ⟨v, z, h3, rfl⟩⟩
      · cases h2
    | limit h hm ht => cases hm
    | error h _ ht hf =>
      obtain ⟨y, rfl, h1⟩ := run h
      rw [tries_one] at ht
      rcases test_one hq ht with ⟨_, z, h2, h3⟩ | ⟨_, h2⟩
      · cases h2
      · exact .error ⟨_, y, h1, .inr ⟨h2, hp.of_error hf, rfl⟩⟩
    | incomplete h _ ht hf =>
      obtain ⟨y, rfl, h1⟩ := run h
      rw [tries_one] at ht
      rcases test_one hq ht with ⟨_, z, h2, h3⟩ | ⟨_, h2⟩
      · cases h2
      · exact .incomplete ⟨_, y, h1, .inr ⟨h2, hp.of_incomplete hf, rfl⟩⟩ (hp.positive hf)
    | panic_p h _ _ hf =>
      obtain ⟨y, rfl, h1⟩ := run h
      exact absurd hf hp.not_panic
    | ub_p h _ _ hf =>
      obtain ⟨y, rfl, h1⟩ := run h
      exact absurd hf hp.not_ub
    | panic_end h _ _ hf =>
      obtain ⟨y, rfl, h1⟩ := run h
      exact absurd hf hq.not_panic
    | ub_end h _ _ hf =>
      obtain ⟨y, rfl, h1⟩ := run h
      exact absurd hf hq.not_ub

theorem sem_till {R : Rel I U} {Q : Rel I V'} (hQ : Det Q) (x : List I) (o : Option (List U × List I)) :
    TillR R Q x o ↔ BindR (StarR (BindR (NotR Q) fun _ => R)) (fun us => MapR Q fun _ => us) x o := by
  constructor
  · rintro ⟨us, y, h1, ⟨v, z, h2, rfl⟩ | ⟨h2, h3, rfl⟩⟩
    · exact .inl ⟨us, y, ⟨us, y, h1, .inr ⟨.inl ⟨_, h2, rfl⟩, rfl⟩, rfl⟩, .inl ⟨v, z, h2, rfl⟩⟩
    · exact .inl ⟨us, y, ⟨us, y, h1, .inl ⟨(), y, .inr ⟨h2, rfl⟩, h3⟩, rfl⟩, .inr ⟨h2, rfl⟩⟩
  · rintro (⟨us, y, ⟨_, _, h1, h2, h3⟩, h4⟩ | ⟨⟨_, _, h1, h2, h3⟩, _⟩)
    · cases h3
      refine ⟨us, y, h1, ?_⟩
      rcases h4 with ⟨v, z, h4, rfl⟩ | ⟨h4, rfl⟩
      · exact .inl ⟨v, z, h4, rfl⟩
      · rcases h2 with ⟨_, y', ⟨_, _, h⟩ | ⟨h5, h6⟩, h7⟩ | ⟨⟨z, h5, _⟩ | ⟨_, h⟩, _⟩
        · cases h
        · cases h6
          exact .inr ⟨h5, h7, rfl⟩
        · cases hQ _ _ _ h4 h5
        · cases h
    · cases h3

/-- `end` after a failure of which the state is known -/
theorem acc_first {R : Rel I (List U)} {Q : Rel I V'} (hQ : Det Q) {q : Parser σ I V' N} (hq : Acc q Q)
    {r : Parser σ I (List U) E} {k : Parser σ I (List U) E} (hk : Acc k R)
    (h : ∀ i w, r i w = q i w >>= fun x => match x.1 with
      | .data b _ => .ok (.data b [], x.2)
      | _ => k i x.2) : Acc r (AltR (MapR Q fun _ => []) R) := by
  intro x w
  have key : Q x none → ∀ o, R x o ↔ AltR (MapR Q fun _ => []) R x o := by
    intro h o
    refine ⟨fun h' => .inr ⟨.inr ⟨h, rfl⟩, h'⟩, fun h' => ?_⟩
    rcases h' with ⟨_, ⟨_, _, h1, _⟩ | ⟨_, h1⟩, _⟩ | ⟨_, h1⟩
    · exact absurd (hQ _ _ _ h h1) nofun
    · cases h1
    · exact h1
  rw [h]
  have := hq x w
  generalize q ⟨.endOfInput, x⟩ w = y at this
  cases this with
  | data h => exact .data (.inl ⟨_, .inl ⟨_, _, h, rfl⟩, rfl⟩)
  | error h => exact fits_congr (key h) (hk x _)
  | incomplete h => exact fits_congr (key h) (hk x _)
  | div h =>
    refine .div fun o ho => ?_
    rcases ho with ⟨_, h1, _⟩ | ⟨h1, _⟩
    · exact mapR_none h _ h1
    · exact mapR_none h _ h1

theorem acc_end {Q : Rel I V'} {q : Parser σ I V' N} (hq : Acc q Q) {r : Parser σ I (List U) E}
    (h : ∀ i w, r i w = q i w >>= fun x =>
      .ok (match x.1 with | .data b _ => .data b [] | _ => .incomplete 1, x.2)) : Acc r (MapR Q fun _ => []) := by
  intro x w
  rw [h]
  have := hq x w
  generalize q ⟨.endOfInput, x⟩ w = y at this
  cases this with
  | data h => exact .data (.inl ⟨_, _, h, rfl⟩)
  | error h => exact .incomplete (.inr ⟨h, rfl⟩) (Nat.le_refl _)
  | incomplete h => exact .incomplete (.inr ⟨h, rfl⟩) (Nat.le_refl _)
  | div h => exact .div (mapR_none h)

section Bounded

variable {N : ∀ k, Rel I (V k)} (hN : ∀ k, Det (N k)) {a : Rule K V I U} {b : Rule K V I V'}
  {p : Parser σ I U E} {q : Parser σ I V' W} (hp : Acc p (Sem N a)) (hq : Acc q (Sem N b))

include hN hp hq

theorem acc_tillFrom (n : Nat) :
    Acc (Bounded.manyTill (.from_ n) (Collect.vec U) p q) (Sem N (.times a (.till a b) n)) := by
  induction n with
  | zero =>
    rw [(Props.C71_many_till_from 0 p q).1]
    exact acc_congr (sem_till (det_sem hN _)) (acc_till (det_sem hN _) (det_sem hN _) hp hq
      fun i w o ho => Props.C33_many_till _ _ i w o ho)
  | succ n ih =>
    rw [(Props.C71_many_till_from n p q).2]
    exact acc_bind (det_sem hN _) hp fun v => acc_map ih _

theorem acc_tillExactly (n : Nat) :
    Acc (Bounded.manyTill (.exactly n) (Collect.vec U) p q) (Sem N (.times a (.tillUpTo a b 0) n)) := by
  induction n with
  | zero => exact acc_end hq (Props.C71_many_till_exactly 0 p q).1
  | succ n ih =>
    rw [(Props.C71_many_till_exactly n p q).2]
    exact acc_bind (det_sem hN _) hp fun v => acc_map ih _

theorem acc_tillRange (m n : Nat) (hmn : m < n) :
    Acc (Bounded.manyTill (.range m n) (Collect.vec U) p q)
      (Sem N (.times a (.tillUpTo a b (n - 1 - m)) m)) := by
  induction m generalizing n with
  | zero =>
    obtain ⟨k, rfl⟩ : ∃ k, n = k + 1 := ⟨n - 1, by omega⟩
    show Acc _ (Sem N (tillUpTo a b k))
    clear hmn
    induction k with
    | zero =>
      refine acc_congr (fun x o => ?_) (acc_first (det_sem hN b) hq (acc_end hq fun _ _ => rfl)
        (Props.C71_many_till_range 0 1 0 (by omega) p q).2.2)
      refine ⟨?_, fun h => ?_⟩
      · rintro (⟨y, h, rfl⟩ | ⟨_, h⟩)
        · exact h
        · exact h
      · cases o with
        | none => exact .inr ⟨h, h⟩
        | some y => exact .inl ⟨y, h, rfl⟩
    | succ k ih =>
      exact acc_first (det_sem hN b) hq (acc_bind (det_sem hN _) hp fun v => acc_map ih _)
        (Props.C71_many_till_range 0 1 k (by omega) p q).2.1
  | succ m ih =>
    obtain ⟨k, rfl⟩ : ∃ k, n = k + 1 := ⟨n - 1, by omega⟩
    rw [(Props.C71_many_till_range m k 0 (by omega) p q).1]
    rw [show k + 1 - 1 - (m + 1) = k - 1 - m by omega]
    exact acc_bind (det_sem hN _) hp fun v => acc_map (ih k (by omega)) _

end Bounded

/-! ### Parsers without parts -/

theorem acc_item {p : Parser σ I T E} (f : I → Option T)
    (h0 : ∀ w, ∃ n w', p ⟨.endOfInput, []⟩ w = .ok (.incomplete n, w') ∧ 1 ≤ n)
    (h1 : ∀ c x w t, f c = some t → ∃ w', p ⟨.endOfInput, c :: x⟩ w = .ok (.data ⟨.endOfInput, x⟩ t, w'))
    (h2 : ∀ c x w, f c = none → ∃ b e w', p ⟨.endOfInput, c :: x⟩ w = .ok (.error b e, w')) :
    Acc p (ItemR f) := by
  intro x w
  cases x with
  | nil =>
    obtain ⟨n, w', h, hn⟩ := h0 w
    rw [h]
    exact .incomplete rfl hn
  | cons c x =>
    cases hc : f c with
    | some t =>
      obtain ⟨w', h⟩ := h1 c x w t hc
      rw [h]
      exact .data (by simp [ItemR, hc])
    | none =>
      obtain ⟨b, e, w', h⟩ := h2 c x w hc
      rw [h]
      exact .error (by simp [ItemR, hc])

/-- The meaning of `one`. -/
abbrev OneR (f : I → Bool) : Rel I I := ItemR fun c => if f c then some c else none

theorem acc_one {p : Parser σ I I E} (f : I → Bool)
    (h0 : ∀ w, ∃ n w', p ⟨.endOfInput, []⟩ w = .ok (.incomplete n, w') ∧ 1 ≤ n)
    (h1 : ∀ c x w, f c = true → ∃ w', p ⟨.endOfInput, c :: x⟩ w = .ok (.data ⟨.endOfInput, x⟩ c, w'))
    (h2 : ∀ c x w, f c = false → ∃ b e w', p ⟨.endOfInput, c :: x⟩ w = .ok (.error b e, w')) :
    Acc p (OneR f) := by
  refine acc_item _ h0 (fun c x w t h => ?_) fun c x w h => h2 c x w ?_
  · cases hf : f c with
    | true => rw [hf] at h; cases h; exact h1 c x w hf
    | false => rw [hf] at h; cases h
  · cases hf : f c with
    | true => rw [hf] at h; cases h
    | false => rfl

theorem one_true {f : I → Bool} {c : I} {x : List I} (h : f c = true) : OneR f (c :: x) (some (c, x)) := by
  simp [ItemR, h]

theorem one_false {f : I → Bool} {c : I} {x : List I} (h : f c = false) : OneR f (c :: x) none := by
  simp [ItemR, h]

theorem acc_satisfy (v : Bool) (f : I → Bool) : Acc (Parsers.satisfy v f : Parser σ I _ _) (OneR f) :=
  acc_one f (fun w => ⟨_, _, (Props.C11_satisfy v f _ w).1, Nat.le_refl _⟩)
    (fun c x w h => ⟨_, (Props.C11_satisfy v f _ w).2.1 c x h⟩)
    (fun c x w h => ⟨_, _, _, (Props.C11_satisfy v f _ w).2.2 c x h⟩)

theorem acc_any : Acc (Parsers.any : Parser σ I _ _) (OneR fun _ => true) :=
  acc_one _ (fun w => ⟨_, _, (Props.C11_any _ w).1, Nat.le_refl _⟩) (fun c x w _ => ⟨_, (Props.C11_any _ w).2 c x⟩) nofun

theorem iter_one {f : I → Bool} : ∀ {x y : List I}, (∀ c ∈ x, f c = true) → Iter (OneR f) x (x ++ y) y := by
  intro x
  induction x with
  | nil => exact fun _ => .nil
  | cons c x ih =>
    intro y h
    exact .cons (one_true (h c (List.mem_cons_self ..))) (ih fun d hd => h d (List.mem_cons_of_mem _ hd))

theorem one_stop {f : I → Bool} {y : List I} (h : ∀ c r, y = c :: r → f c = false) : OneR f y none := by
  cases y with
  | nil => rfl
  | cons c r => exact one_false (h c r rfl)

theorem acc_takeWhile (f : I → Bool) : Acc (Parsers.takeWhile f : Parser σ I _ _) (StarR (OneR f)) := by
  intro b w
  obtain ⟨x, y, rfl, h⟩ := Props.MaxPrefix.exists f b
  rw [Props.C13_take_while f _ x y h]
  exact .data ⟨_, y, iter_one h.1, one_stop h.2, rfl⟩

theorem acc_takeRemainder : Acc (Parsers.takeRemainder : Parser σ I _ _) (StarR (OneR fun _ => true)) := by
  intro b w
  rw [Props.C18_take_remainder]
  refine .data ⟨b, [], ?_, rfl, rfl⟩
  have := iter_one (f := fun _ => true) (x := b) (y := []) fun _ _ => rfl
  rwa [List.append_nil] at this

theorem acc_takeWhile1 (v : Bool) (f : I → Bool) : Acc (Parsers.takeWhile1 v f : Parser σ I _ _)
    (BindR (OneR f) fun u => MapR (StarR (OneR f)) (u :: ·)) := by
  intro b w
  cases b with
  | nil =>
    rw [Props.C14_take_while1_empty]
    exact .incomplete (.inr ⟨rfl, rfl⟩) (Nat.le_refl _)
  | cons c b =>
    cases hc : f c with
    | false =>
      rw [Props.C14_take_while1_err v f _ c b hc]
      exact .error (.inr ⟨one_false hc, rfl⟩)
    | true =>
      obtain ⟨x, y, rfl, h⟩ := Props.MaxPrefix.exists f b
      have h' : Props.MaxPrefix f (c :: x) y := ⟨List.forall_mem_cons.mpr ⟨hc, h.1⟩, h.2⟩
      have := Props.C14_take_while1 v f .endOfInput (c :: x) y (by simp) h' w
      rw [List.cons_append] at this
      rw [this]
      exact .data (.inl ⟨c, x ++ y, one_true hc, .inl ⟨_, _, ⟨_, y, iter_one h.1, one_stop h.2, rfl⟩, rfl⟩⟩)

theorem acc_takeTill (f : I → Bool) : Acc (Parsers.takeTill f : Parser σ I _ _)
    (BindR (StarR (OneR fun c => !f c)) fun s => MapR (AndR (OneR f)) fun _ => s) := by
  intro b w
  obtain ⟨x, y, rfl, h⟩ := Props.MaxPrefix.exists (fun c => !f c) b
  have hx : ∀ c ∈ x, f c = false := fun c hc => by simpa using h.1 c hc
  cases y with
  | nil =>
    rw [List.append_nil, Props.C15_take_till_none f _ x hx]
    have := iter_one (f := fun c => !f c) (x := x) (y := []) h.1
    rw [List.append_nil] at this
    exact .incomplete (.inl ⟨_, [], ⟨_, [], this, rfl, rfl⟩, .inr ⟨.inr ⟨rfl, rfl⟩, rfl⟩⟩) (Nat.le_refl _)
  | cons c y =>
    have hc : f c = true := by simpa using h.2 c y rfl
    rw [Props.C15_take_till f _ x c y hx hc]
    exact .data (.inl ⟨_, c :: y, ⟨_, _, iter_one h.1, one_stop h.2, rfl⟩,
      .inl ⟨c, c :: y, .inl ⟨c, y, one_true hc, rfl⟩, rfl⟩⟩)

theorem iter_any (x y : List I) : Iter (OneR fun _ => true) x (x ++ y) y := iter_one fun _ _ => rfl

theorem acc_take (N : ∀ k, Rel I (V k)) (n : Nat) :
    Acc (Parsers.take n : Parser σ I _ _) (Sem N (times any (.ret []) n)) := by
  intro b w
  by_cases h : n ≤ b.length
  · have := Props.C12_take_ok .endOfInput (b.take n) (b.drop n) w
    rw [List.take_append_drop, List.length_take, Nat.min_eq_left h] at this
    rw [this]
    refine .data ((sem_times ..).mpr (.inl ⟨b.take n, b.drop n, by simp [h], ?_,
      .inl ⟨[], _, rfl, by simp [RetR]⟩⟩))
    have := iter_any (b.take n) (b.drop n)
    rwa [List.take_append_drop] at this
  · have := Props.C12_take_short .endOfInput b (n - b.length) (by omega) w
    rw [Nat.add_sub_cancel' (by omega)] at this
    rw [this]
    refine .incomplete ((sem_times ..).mpr (.inr ⟨b, [], by omega, ?_, rfl, rfl⟩)) (by omega)
    have := iter_any b []
    rwa [List.append_nil] at this

theorem sem_literal [DecidableEq I] (N : ∀ k, Rel I (V k)) (s : List I) : ∀ x,
    (∀ y, x = s ++ y → Sem N (literal s) x (some (s, y))) ∧
    ((¬ ∃ y, x = s ++ y) → Sem N (literal s) x none) := by
  induction s with
  | nil => exact fun x => ⟨fun y h => h ▸ rfl, fun h => absurd ⟨x, rfl⟩ h⟩
  | cons c s ih =>
    intro x
    constructor
    · rintro y rfl
      exact .inl ⟨c, s ++ y, one_true (decide_eq_true rfl), .inl ⟨_, _, (ih _).1 y rfl, rfl⟩⟩
    · intro h
      cases x with
      | nil => exact .inr ⟨rfl, rfl⟩
      | cons d x =>
        by_cases hd : d = c
        · subst hd
          refine .inl ⟨d, x, one_true (decide_eq_true rfl), .inr ⟨(ih x).2 ?_, rfl⟩⟩
          rintro ⟨y, rfl⟩
          exact h ⟨y, rfl⟩
        · exact .inr ⟨one_false (decide_eq_false hd), rfl⟩

theorem acc_string [DecidableEq I] (N : ∀ k, Rel I (V k)) (v : Bool) (s : List I) :
    Acc (Parsers.string v s : Parser σ I _ _) (Sem N (literal s)) := by
  intro b w
  by_cases h : ∃ y, b = s ++ y
  · obtain ⟨y, rfl⟩ := h
    rw [Props.C17_string_match]
    exact .data ((sem_literal ..).1 y rfl)
  · have hn := (sem_literal N s b).2 h
    have hb := Props.C06_no_panic (p := Parsers.string (σ := σ) v s) (.string v s) ⟨.endOfInput, b⟩ w
    have hr := Props.C69_returns (p := Parsers.string (σ := σ) v s) (.string v s) ⟨.endOfInput, b⟩ w
    have hu := Props.C69_defined (p := Parsers.string (σ := σ) v s) (.string v s) ⟨.endOfInput, b⟩ w
    match hs : Parsers.string v s ⟨.endOfInput, b⟩ w with
    | .ok (.data i t, w') => exact absurd ⟨_, ((Props.C17_string_iff ..).mp hs).2.2.2⟩ h
    | .ok (.error _ _, w') => exact .error hn
    | .ok (.incomplete m, w') =>
      refine .incomplete hn ?_
      rcases Parsers.string_cases s b with hl | ⟨r, rfl⟩ | ⟨x, a, c, s', r, rfl, rfl, ha, hl⟩
      · rw [Props.C17_string_short v s b _ hl] at hs
        cases hs
        omega
      · exact absurd ⟨r, rfl⟩ h
      · rw [Props.C17_string_mismatch v x s' r a c _ ha hl] at hs
        cases v <;> cases hs
    | .panic => exact absurd hs hb
    | .ub => exact absurd hs hu
    | .div => exact absurd hs hr

theorem scan_fold (f : S → I → Option S) (s' : S) : ∀ (x : List I) (s : S), x.foldlM f s = some s' →
    scanF f s x = none ∧ ∀ c y, f s' c = none → scanF f s (x ++ c :: y) = some ((x, s'), c :: y) := by
  intro x
  induction x with
  | nil =>
    intro s h
    cases h
    exact ⟨rfl, fun c y hc => by rw [List.nil_append, scanF, hc]⟩
  | cons d x ih =>
    intro s h
    rw [List.foldlM_cons] at h
    cases hd : f s d with
    | none => rw [hd] at h; cases h
    | some s1 =>
      rw [hd] at h
      have := ih s1 h
      refine ⟨by rw [scanF, hd]; dsimp only; rw [this.1]; rfl, fun c y hc => ?_⟩
      rw [List.cons_append, scanF, hd]
      dsimp only
      rw [this.2 c y hc]
      rfl

theorem acc_runScanner (s : S) (f : S → I → Option S) :
    Acc (Parsers.runScanner s f : Parser σ I _ _) (ScanR s f) := by
  intro b w
  rcases Parsers.scan_cases f b s with ⟨s', h⟩ | ⟨x, c, y, s', rfl, hx, hc⟩
  · rw [(Props.C16_scan_none s s' f _ b h w).2]
    exact .incomplete (scan_fold f s' b s h).1.symm (Nat.le_refl _)
  · rw [(Props.C16_scan s s' f _ x c y hx hc w).2]
    exact .data ((scan_fold f s' x s hx).2 c y hc).symm

theorem acc_scan (s : S) (f : S → I → Option S) :
    Acc (Parsers.scan s f : Parser σ I _ _) (MapR (ScanR s f) Prod.fst) := by
  have : (Parsers.scan s f : Parser σ I _ _) = Parser.map (Parsers.runScanner s f) Prod.fst :=
    funext fun i => funext fun w => (Props.C16_scan_total s f i w).2.2
  rw [this]
  exact acc_map (acc_runScanner s f) _

theorem drop_times {N : ∀ k, Rel I (V k)} (a : Rule K V I U) (n : Nat) (x : List I) (o : Option (Unit × List I)) :
    BindR (Sem N a) (fun _ => Sem N (drop (times a (.ret []) n))) x o ↔
      Sem N (drop (times a (.ret []) (n + 1))) x o := by
  constructor
  · rintro (⟨u, y, h1, ⟨us, z, h2, rfl⟩ | ⟨h2, rfl⟩⟩ | ⟨h1, rfl⟩)
    · exact .inl ⟨u :: us, z, .inl ⟨u, y, h1, .inl ⟨us, z, h2, rfl⟩⟩, rfl⟩
    · exact .inr ⟨.inl ⟨u, y, h1, .inr ⟨h2, rfl⟩⟩, rfl⟩
    · exact .inr ⟨.inr ⟨h1, rfl⟩, rfl⟩
  · rintro (⟨us, z, ⟨u, y, h1, ⟨vs, z', h2, h3⟩ | ⟨_, h3⟩⟩ | ⟨_, h3⟩, rfl⟩ |
      ⟨⟨u, y, h1, ⟨_, _, _, h3⟩ | ⟨h2, _⟩⟩ | ⟨h1, _⟩, rfl⟩)
    · cases h3
      exact .inl ⟨u, y, h1, .inl ⟨vs, _, h2, rfl⟩⟩
    · cases h3
    · cases h3
    · cases h3
    · exact .inl ⟨u, y, h1, .inr ⟨h2, rfl⟩⟩
    · exact .inr ⟨h1, rfl⟩

theorem acc_skipExactly {N : ∀ k, Rel I (V k)} (hN : ∀ k, Det (N k)) {a : Rule K V I U} {p : Parser σ I U E}
    (hp : Acc p (Sem N a)) (n : Nat) :
    Acc (Bounded.skipMany (.exactly n) p) (Sem N (.drop (.times a (.ret []) n))) := by
  induction n with
  | zero =>
    intro x w
    unfold Bounded.skipMany Bounded.skipManyExactly
    dsimp only
    rw [loop_apply]
    exact .data (.inl ⟨[], x, rfl, rfl⟩)
  | succ n ih =>
    refine acc_congr (drop_times a n) fun x w => ?_
    have e : Bounded.skipMany (.exactly (n + 1)) p ⟨.endOfInput, x⟩ w =
        (p ⟨.endOfInput, x⟩ >>= fun r => match r with
          | .data b _ => Bounded.skipMany (.exactly n) p b
          | .error b e => pure (.error b e)
          | .incomplete m => if m == 0 then pure (.data ⟨.endOfInput, x⟩ ()) else pure (.incomplete m)) w := by
      unfold Bounded.skipMany Bounded.skipManyExactly
      dsimp only
      rw [loop_apply, M.bind_apply]
      rw [if_neg (show ¬ ((n + 1 == 0) = true) by simp)]
      rw [M.bind_apply]
      cases p ⟨.endOfInput, x⟩ w with
      | ok r =>
        obtain ⟨r, w'⟩ := r
        cases r with
        | data b t => rfl
        | error b e => rfl
        | incomplete m => cases m <;> rfl
      | panic => rfl
      | ub => rfl
      | div => rfl
    rw [e]
    have hd := det_sem hN a
    refine fits_bind (hp x w) ?_ ?_ ?_ ?_
    · intro y t w' h
      refine fits_congr (fun o => ⟨fun ho => .inl ⟨t, y, h, ho⟩, ?_⟩) (ih y w')
      rintro (⟨t', y', h1, h2⟩ | ⟨h1, _⟩)
      · cases hd _ _ _ h h1; exact h2
      · cases hd _ _ _ h h1
    · exact fun h b e w' => .error (.inr ⟨h, rfl⟩)
    · intro h m w' hm
      dsimp only
      rw [if_neg (by simp; omega)]
      exact .incomplete (.inr ⟨h, rfl⟩) hm
    · rintro h o (⟨t', y', h1, h2⟩ | ⟨h1, _⟩)
      · exact h _ h1
      · exact h _ h1

/-! ### All together -/

variable {K : Type} {σ I : Type} {T E : K → Type}

theorem follows_acc {N : ∀ k, Rel I (T k)} (hd : ∀ k, Det (N k)) (he : ∀ k, Ends (N k)) {q : Fns σ I T E}
    (hq : ∀ k, Acc (q k) (N k)) {T' E' : Type} {p : Fns σ I T E → Parser σ I T' E'} {r : Rule K T I T'}
    (h : Follows p r) : Acc (p q) (Sem N r) := by
  induction h with
  | call k => exact hq k
  | ret t => exact acc_ret t
  | err e => exact acc_err e
  | incomplete n hn => exact fun x _ => .incomplete rfl hn
  | bind _ _ ih1 ih2 => exact acc_bind (det_sem hd _) ih1 ih2
  | andThen _ _ ih1 ih2 => exact acc_andThen (det_sem hd _) ih1 ih2
  | map f _ ih => exact acc_map ih f
  | mapErr f _ ih => exact acc_mapErr ih f
  | mapM f g hf _ ih => exact acc_mapM ih f g hf
  | inspect f hf _ ih => exact acc_inspect ih f hf
  | any => exact acc_any
  | satisfy v f => exact acc_satisfy v f
  | satisfyWith v f p =>
    refine acc_item _ (fun w => ⟨_, _, (Props.C11_satisfy_with v f p _ w).1, Nat.le_refl _⟩) ?_ ?_
    · intro c x w t h
      cases hf : p (f c) with
      | true =>
        rw [hf] at h
        cases h
        exact ⟨_, (Props.C11_satisfy_with v f p _ w).2.1 c x hf⟩
      | false => rw [hf] at h; cases h
    · intro c x w h
      cases hf : p (f c) with
      | true => rw [hf] at h; cases h
      | false => exact ⟨_, _, _, (Props.C11_satisfy_with v f p _ w).2.2 c x hf⟩
  | token v t =>
    refine acc_one (fun c => decide (c = t)) (fun w => ⟨_, _, (Props.C11_token v t _ w).1, Nat.le_refl _⟩) ?_ ?_
    · intro c x w h
      obtain rfl := of_decide_eq_true h
      exact ⟨_, (Props.C11_token v c _ w).2.1 x⟩
    · exact fun c x w h => ⟨_, _, _, (Props.C11_token v t _ w).2.2 c x (of_decide_eq_false h)⟩
  | notToken v t =>
    refine acc_one (fun c => decide (c ≠ t)) (fun w => ⟨_, _, (Props.C11_not_token v t _ w).1, Nat.le_refl _⟩) ?_ ?_
    · exact fun c x w h => ⟨_, (Props.C11_not_token v t _ w).2.1 c x (of_decide_eq_true h)⟩
    · intro c x w h
      obtain rfl := Classical.not_not.mp (of_decide_eq_false h)
      exact ⟨_, _, _, (Props.C11_not_token v c _ w).2.2 x⟩
  | peek =>
    intro x w
    cases x with
    | nil =>
      dsimp only
      rw [(Props.C11_peek _ w).2.2.1]
      exact .data (.inr ⟨.inr ⟨.inr ⟨rfl, rfl⟩, rfl⟩, rfl⟩)
    | cons c x =>
      dsimp only
      rw [(Props.C11_peek _ w).2.2.2]
      exact .data (.inl ⟨_, .inl ⟨c, c :: x, .inl ⟨c, x, rfl, rfl⟩, rfl⟩, rfl⟩)
  | peekNext =>
    intro x w
    cases x with
    | nil => dsimp only; rw [(Props.C11_peek _ w).1]; exact .incomplete (.inr ⟨rfl, rfl⟩) (Nat.le_refl _)
    | cons c x =>
      dsimp only
      rw [(Props.C11_peek _ w).2.1]
      exact .data (.inl ⟨c, x, rfl, rfl⟩)
  | take n => exact acc_take N n
  | takeWhile f => exact acc_takeWhile f
  | takeWhile1 v f => exact acc_takeWhile1 v f
  | takeTill f => exact acc_takeTill f
  | runScanner s f => exact acc_runScanner s f
  | scan s f => exact acc_scan s f
  | takeRemainder => exact acc_takeRemainder
  | string v s => exact acc_string N v s
  | eof v =>
    intro x w
    dsimp only
    rw [Props.C18_eof]
    cases x with
    | nil => exact .data (.inr ⟨rfl, rfl⟩)
    | cons c x => exact .error (.inl ⟨_, rfl, rfl⟩)
  | option t _ ih => exact acc_option (det_sem hd _) ih t
  | or _ _ ih1 ih2 => exact acc_or (det_sem hd _) ih1 ih2
  | count n _ ih =>
    have := acc_repeated hd ih (min := n) (max := some n) (fun m h => by cases h; omega)
      fun i w o ho => Props.C25_count n _ i w o ho
    rw [repeated, Nat.sub_self] at this
    exact this
  | many _ ih =>
    exact acc_repeated hd ih (min := 0) (max := none) nofun fun i w o ho => Props.C23_many _ i w o ho
  | many1 _ ih =>
    exact acc_repeated hd ih (min := 1) (max := none) nofun fun i w o ho => Props.C24_many1 _ i w o ho
  | skipMany _ ih =>
    exact acc_drop (acc_repeated hd ih (min := 0) (max := none) nofun
      fun i w o ho => Props.C23_many _ i w o ho) fun i w => (Props.C28_skip_many_unbounded _ i w).1
  | skipMany1 _ ih =>
    exact acc_drop (acc_repeated hd ih (min := 1) (max := none) nofun
      fun i w o ho => Props.C24_many1 _ i w o ho) fun i w => (Props.C28_skip_many_unbounded _ i w).2
  | sepBy conv _ _ ih1 ih2 =>
    exact acc_congr sem_sep (acc_sep (det_sem hd _) (det_bind (det_sem hd _) fun _ => det_sem hd _) ih1
      (acc_sepThen (det_sem hd _) ih1 ih2 conv) (Nat.zero_le _)
      fun i w o ho => Props.C31_sep_by conv _ _ i w o ho)
  | sepBy1 conv _ _ ih1 ih2 =>
    exact acc_congr sem_sep1 (acc_sep (det_sem hd _) (det_bind (det_sem hd _) fun _ => det_sem hd _) ih1
      (acc_sepThen (det_sem hd _) ih1 ih2 conv) (Nat.le_refl _)
      fun i w o ho => Props.C32_sep_by1 conv _ _ i w o ho)
  | manyTill _ _ ih1 ih2 =>
    exact acc_congr (sem_till (det_sem hd _)) (acc_till (det_sem hd _) (det_sem hd _) ih1 ih2
      fun i w o ho => Props.C33_many_till _ _ i w o ho)
  | matchedBy _ ih => exact acc_matchedBy (ends_sem he _) ih
  | lookAhead _ ih => exact acc_lookAhead ih
  | boundedFrom n _ ih =>
    exact acc_repeated hd ih (max := none) nofun fun i w o ho => Props.C24_many_from n _ i w o ho
  | boundedTo n _ ih =>
    exact acc_repeated hd ih (max := some (n - 1)) (fun m h => Nat.zero_le _)
      fun i w o ho => Props.C26_many_to n _ i w o ho
  | boundedRange m n h _ ih =>
    exact acc_repeated hd ih (max := some (n - 1)) (fun m h => by cases h; omega)
      fun i w o ho => Props.C26_many_range m n h _ i w o ho
  | boundedExactly n _ ih =>
    have := acc_repeated hd ih (min := n) (max := some n) (fun m h => by cases h; omega)
      fun i w o ho => Props.C25_count n _ i w o ho
    rw [repeated, Nat.sub_self] at this
    exact this
  | skipFrom n _ ih =>
    exact acc_drop (acc_repeated hd ih (max := none) nofun fun i w o ho => Props.C24_many_from n _ i w o ho)
      fun i w => Props.C28_skip_many (.from_ n) _ trivial i w
  | skipTo n _ ih =>
    exact acc_drop (acc_repeated hd ih (max := some (n - 1)) (fun m h => Nat.zero_le _)
      fun i w o ho => Props.C26_many_to n _ i w o ho)
      fun i w => Props.C28_skip_many (.to n) _ trivial i w
  | skipRange m n h _ ih =>
    exact acc_drop (acc_repeated hd ih (max := some (n - 1)) (fun m h => by cases h; omega)
      fun i w o ho => Props.C26_many_range m n h _ i w o ho)
      fun i w => Props.C28_skip_many (.range m n) _ h i w
  | skipExactly n _ ih => exact acc_skipExactly hd ih n
  | tillFrom n _ _ ih1 ih2 => exact acc_tillFrom hd ih1 ih2 n
  | tillExactly n _ _ ih1 ih2 => exact acc_tillExactly hd ih1 ih2 n
  | tillRange m n h _ _ ih1 ih2 => exact acc_tillRange hd ih1 ih2 m n h
  | not e _ ih => exact acc_not ih e

theorem gives_det (G : ∀ k, Rule K T I (T k)) {T' : Type} (r : Rule K T I T') : Det (Gives G r) := by
  intro x o o' h h'
  obtain ⟨m, h⟩ := gives_iff.mp h
  obtain ⟨n, h'⟩ := gives_iff.mp h'
  exact det_sem (upto_det G (max m n)) r _ _ _ (sem_mono (upto_mono G (Nat.le_max_left ..)) _ _ _ h)
    (sem_mono (upto_mono G (Nat.le_max_right ..)) _ _ _ h')

theorem gives_ends (G : ∀ k, Rule K T I (T k)) {T' : Type} (r : Rule K T I T') : Ends (Gives G r) := by
  intro x t y h
  obtain ⟨m, h⟩ := gives_iff.mp h
  exact ends_sem (upto_ends G m) r _ _ _ h

theorem sem_iff {G : ∀ k, Rule K T I (T k)} {T' : Type} {r : Rule K T I T'} {x : List I}
    {o : Option (T' × List I)} : Sem (fun k => Gives G (.call k)) r x o ↔ Gives G r x o := by
  refine ⟨sem_gives (fun _ _ _ h => h) _ _ _, fun h => ?_⟩
  obtain ⟨n, h⟩ := gives_iff.mp h
  exact sem_mono (fun k x o h => gives_iff.mpr ⟨n, h⟩) _ _ _ h

/-- Functions do what the rules say, if their bodies do. -/
theorem solution_acc {G : ∀ k, Rule K T I (T k)} {F : Fns σ I T E → Fns σ I T E}
    (hF : ∀ (N : ∀ k, Rel I (T k)), (∀ k, Det (N k)) → (∀ k, Ends (N k)) →
      ∀ q : Fns σ I T E, (∀ k, Acc (q k) (N k)) → ∀ k, Acc (F q k) (Sem N (G k)))
    {p : Fns σ I T E} (hp : Means F p) (k : K) : Acc (p k) (Gives G (.call k)) := by
  have key : ∀ n k, Acc (nested F n k) (upto G n k) := by
    intro n
    induction n with
    | zero => exact fun _ _ _ => .div fun _ h => h
    | succ n ih => exact fun k => hF _ (upto_det G n) (upto_ends G n) _ ih k
  intro x w
  by_cases hd : p k ⟨.endOfInput, x⟩ w = .div
  · rw [hd]
    refine .div fun o ho => ?_
    obtain ⟨n, h⟩ := gives_iff.mp ho
    have h1 := key n k x w
    match hr : nested F n k ⟨.endOfInput, x⟩ w, h1 with
    | .ok r, _ => exact absurd (((hp k _ w (.ok r) nofun).mpr ⟨n, hr⟩).symm.trans hd) nofun
    | .div, .div h' => exact h' _ h
  · obtain ⟨n, hn⟩ := (hp k _ w _ hd).mp rfl
    have h := key n k x w
    rw [hn] at h
    generalize p k ⟨.endOfInput, x⟩ w = r at h hd
    cases h with
    | data h => exact .data (gives_iff.mpr ⟨n, h⟩)
    | error h => exact .error (gives_iff.mpr ⟨n, h⟩)
    | incomplete h hn => exact .incomplete (gives_iff.mpr ⟨n, h⟩) hn
    | div h => exact absurd rfl hd

theorem means_acc {G : ∀ k, Rule K T I (T k)} {F : Fns σ I T E → Fns σ I T E}
    (hF : ∀ k, Follows (fun q => F q k) (G k)) {p : Fns σ I T E} (hp : Means F p) (k : K) :
    Acc (p k) (Gives G (.call k)) :=
  solution_acc (fun _ hd he _ hq k => follows_acc hd he hq (hF k)) hp k

/-- A parser written like `r` does what `r` says. -/
theorem follows_gives {G : ∀ k, Rule K T I (T k)} {F : Fns σ I T E → Fns σ I T E}
    (hF : ∀ k, Follows (fun q => F q k) (G k)) {p : Fns σ I T E} (hp : Means F p) {T' E' : Type}
    {x : Fns σ I T E → Parser σ I T' E'} {r : Rule K T I T'} (hx : Follows x r) : Acc (x p) (Gives G r) :=
  acc_congr (fun _ _ => sem_iff)
    (follows_acc (fun _ => gives_det G _) (fun _ => gives_ends G _) (means_acc hF hp) hx)

/-- What `digits` gives. -/
def digitsValue (N : Ascii.Num T') (b : List UInt8) : T' :=
  match Peg.digits N b with
  | .ok x => x
  | _ => N.fromU8 0

theorem digitsValue_ok {N : Ascii.Num T'} (ht : Total N) (hc : Computes N) (b : List UInt8) :
    Peg.digits N b = .ok (digitsValue N b) := by
  obtain ⟨x, _, h⟩ := Peg.digits_returns (σ := Unit) ht hc b ()
  unfold digitsValue
  cases hd : Peg.digits N b with
  | ok x => rfl
  | panic => rw [hd] at h; cases h
  | ub => rw [hd] at h; cases h
  | div => rw [hd] at h; cases h

/-- Every rule is written by some parser. -/
theorem expressible {T' : Type} (r : Rule K T I T') : ∃ x : Fns σ I T (fun _ => Error I) → Parser σ I T' (Error I),
    (∀ a, Body a x) ∧ ∀ (N : ∀ k, Rel I (T k)), (∀ k, Det (N k)) → (∀ k, Ends (N k)) →
      ∀ q : Fns σ I T fun _ => Error I, (∀ k, Acc (q k) (N k)) → Acc (x q) (Sem N r) := by
  induction r with
  | ret t => exact ⟨_, fun a => .const (.ret t), fun N hd he q hq => acc_ret t⟩
  | fail => exact ⟨_, fun a => .const (.err Error.unexpected), fun N hd he q hq => acc_err _⟩
  | @item T' f =>
    let k : I → Parser σ I T' (Error I) := fun c => match f c with
      | some t => Parser.ret t
      | none => Parser.err .unexpected
    refine ⟨fun _ => Parser.bind id Parsers.any k, fun a => .bind (.const .any) fun c => ?_,
      fun N hd he q hq => ?_⟩
    · show Body a fun _ => k c
      unfold k
      cases f c with
      | some t => exact .const (.ret t)
      | none => exact .const (.err _)
    · have h := acc_bind (p := Parsers.any (σ := σ)) (conv := id) (f := k)
        (S := fun c x o => o = (f c).map fun t => (t, x))
        (det_sem (K := Empty) (V := nofun) (N := nofun) nofun (.any : Rule Empty _ I I)) acc_any fun c x w => ?_
      · refine acc_congr (fun x o => ?_) h
        cases x with
        | nil =>
          constructor
          · rintro (⟨_, _, h, _⟩ | ⟨_, h⟩)
            · cases h
            · exact h
          · exact fun h => .inr ⟨rfl, h⟩
        | cons c x =>
          constructor
          · rintro (⟨_, _, h, h'⟩ | ⟨h, _⟩)
            · cases h; exact h'
            · cases h
          · exact fun h => .inl ⟨c, x, rfl, h⟩
      · unfold k
        cases f c with
        | some t => exact .data rfl
        | none => exact .error rfl
  | call k => exact ⟨_, fun a => .call k, fun N hd he q hq => hq k⟩
  | bind a b iha ihb =>
    obtain ⟨x, hx, sx⟩ := iha
    exact ⟨fun q => Parser.bind id (x q) fun u => (ihb u).choose q,
      fun a => .bind (hx a) fun u => (ihb u).choose_spec.1 a,
      fun N hd he q hq => acc_bind (det_sem hd _) (sx N hd he q hq) fun u => (ihb u).choose_spec.2 N hd he q hq⟩
  | alt a b iha ihb =>
    obtain ⟨x, hx, sx⟩ := iha
    obtain ⟨y, hy, sy⟩ := ihb
    exact ⟨_, fun a => .or (hx a) (hy a),
      fun N hd he q hq => acc_or (det_sem hd _) (sx N hd he q hq) (sy N hd he q hq)⟩
  | @star U a ih =>
    obtain ⟨x, hx, sx⟩ := ih
    exact ⟨_, fun a => .many (Collect.vec U) (hx a), fun N hd he q hq =>
      acc_repeated hd (sx N hd he q hq) (min := 0) (max := none) nofun fun i w o ho => Props.C23_many _ i w o ho⟩
  | and a ih =>
    obtain ⟨x, hx, sx⟩ := ih
    exact ⟨_, fun a => .lookAhead (hx a), fun N hd he q hq => acc_lookAhead (sx N hd he q hq)⟩
  | not a ih =>
    obtain ⟨x, hx, sx⟩ := ih
    refine ⟨_, fun a => .bind (.option none (.map some (.lookAhead (hx a)))) fun o => ?_,
      fun N hd he q hq => acc_not (sx N hd he q hq) .unexpected⟩
    cases o with
    | none => exact .const (.ret ())
    | some _ => exact .const (.err _)
  | slice a ih =>
    obtain ⟨x, hx, sx⟩ := ih
    exact ⟨_, fun a => .matchedBy (hx a), fun N hd he q hq => acc_matchedBy (ends_sem he _) (sx N hd he q hq)⟩
  | scan s f => exact ⟨_, fun a => .const (.runScanner s f), fun N hd he q hq => acc_runScanner s f⟩

theorem follows_body {T' E' : Type} {x : Fns σ I T E → Parser σ I T' E'} {r : Rule K T I T'} (h : Follows x r) :
    Body panicFree x := by
  induction h with
  | call k => exact .call k
  | ret t => exact .const (.ret t)
  | err e => exact .const (.err e)
  | incomplete n hn => exact .const (.incomplete n hn)
  | bind _ _ iha ihb => exact .bind iha ihb
  | andThen _ _ iha ihb => exact .andThen iha ihb
  | map f _ ih => exact .map f ih
  | mapErr f _ ih => exact .mapErr f ih
  | mapM f g hf _ ih =>
    refine .mapM f (fun _ t w h => ?_) ih
    obtain ⟨w', h'⟩ := hf t w
    rw [h'] at h
    cases h
  | inspect f hf _ ih =>
    refine .inspect f (fun _ t w h => ?_) ih
    obtain ⟨_, w', h'⟩ := hf t w
    rw [h'] at h
    cases h
  | any => exact .const .any
  | satisfy v f => exact .const (.satisfy v f)
  | satisfyWith v f p => exact .const (.satisfyWith v f p)
  | token v t => exact .const (.token v t)
  | notToken v t => exact .const (.notToken v t)
  | peek => exact .const (.peek rfl)
  | peekNext => exact .const .peekNext
  | take n => exact .const (.take n)
  | takeWhile f => exact .const (.takeWhile f)
  | takeWhile1 v f => exact .const (.takeWhile1 v f)
  | takeTill f => exact .const (.takeTill f)
  | runScanner s f => exact .const (.runScanner s f)
  | scan s f => exact .const (.scan s f)
  | takeRemainder => exact .const (.takeRemainder rfl)
  | string v s => exact .const (.string v s)
  | eof v => exact .const (.eof v rfl)
  | option t _ ih => exact .option t ih
  | or _ _ iha ihb => exact .or iha ihb
  | count n _ ih => exact .count n _ ih
  | many _ ih => exact .many _ ih
  | many1 _ ih => exact .many1 _ ih
  | skipMany _ ih => exact .skipMany ih
  | skipMany1 _ ih => exact .skipMany1 ih
  | sepBy conv _ _ iha ihs => exact .sepBy conv _ iha ihs
  | sepBy1 conv _ _ iha ihs => exact .sepBy1 conv _ iha ihs
  | manyTill _ _ iha ihb => exact .manyTill _ nofun iha ihb
  | matchedBy _ ih => exact .matchedBy ih
  | lookAhead _ ih => exact .lookAhead ih
  | boundedFrom n _ ih => exact .boundedMany _ _ (fun _ => trivial) ih
  | boundedTo n _ ih => exact .boundedMany _ _ (fun _ => trivial) ih
  | boundedRange m n h _ ih => exact .boundedMany _ _ (fun _ => Nat.le_of_lt h) ih
  | boundedExactly n _ ih => exact .boundedMany _ _ (fun _ => trivial) ih
  | skipFrom n _ ih => exact .boundedSkipMany _ (fun _ => trivial) ih
  | skipTo n _ ih => exact .boundedSkipMany _ (fun _ => trivial) ih
  | skipRange m n h _ ih => exact .boundedSkipMany _ (fun _ => Nat.le_of_lt h) ih
  | skipExactly n _ ih => exact .boundedSkipMany _ (fun _ => trivial) ih
  | tillFrom n _ _ iha ihb => exact .boundedManyTill _ _ rfl (fun _ => trivial) iha ihb
  | tillExactly n _ _ iha ihb => exact .boundedManyTill _ _ rfl (fun _ => trivial) iha ihb
  | tillRange m n h _ _ iha ihb => exact .boundedManyTill _ _ rfl (fun _ => h) iha ihb
  | not e _ ih =>
    refine .bind (.option _ (.map _ (.lookAhead ih))) fun o => ?_
    cases o with
    | none => exact .const (.ret ())
    | some _ => exact .const (.err _)

end Chomp.Rules
