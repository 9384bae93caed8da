import Verif.Lemmas.Till
import Verif.Lemmas.SepBy
import Verif.Lemmas.Settles
import Verif.Spec.Built

/-
Locality and absence of panics for every parser assembled from the library.
-/

namespace Chomp

open Spec

/-! ### The two loops of `skip_many` which are not `Rep.core` -/

namespace Rep

/-- One iteration of `skip_many`. With `z`, an incomplete result asking for 0 items is a success. -/
def skipStep (z : Bool) (p : Parser σ I U E) (s : Input I × Nat × Nat) :
    M σ ((Input I × Nat × Nat) ⊕ ParseResult I Unit E) := fun w =>
  let (i, lo, hi) := s
  if hi = 0 then .ok (.inr (.data i ()), w)
  else p i w >>= fun r =>
    match r.1 with
    | .data b _ => .ok (.inl (b, lo - 1, hi - 1), r.2)
    | .error b e => .ok (.inr (if lo = 0 then .data i () else .error b e), r.2)
    | .incomplete n =>
      .ok (.inr (if (lo = 0 ∧ i.mode = .endOfInput) ∨ (z = true ∧ n = 0) then .data i ()
        else .incomplete n), r.2)

theorem skipManyRange_eq {a b : Nat} (h : a ≤ b) (p : Parser σ I U E) (i : Input I) (w : σ) :
    Bounded.skipManyRange a b p i w = loop (skipStep false p) (i, a, b - 1) w := by
  simp only [Bounded.skipManyRange, h, if_true]
  rw [maxOf_eq]
  refine loop_eq_of (rel := fun s1 s2 => s1 = s2) ?_ rfl w
  rintro ⟨⟨m, b⟩, lo, hi⟩ _ w rfl
  by_cases h0 : hi = 0
  · subst h0
    right; left
    exact ⟨_, _, rfl, by simp [skipStep, Input.ret]⟩
  · cases hp : p ⟨m, b⟩ w with
    | ok x =>
      obtain ⟨x, w1⟩ := x
      cases x with
      | data b' v =>
        left
        refine ⟨(b', lo - 1, hi - 1), _, w1, ?_, by simp [skipStep, h0, hp], rfl⟩
        simp [h0, M.bind_apply, hp, decSat_ok, dec_ok h0, M.map_apply]
      | error b' e =>
        right; left
        by_cases hl : lo = 0 <;>
          exact ⟨_, w1, by simp [h0, M.bind_apply, hp, hl]; rfl,
            by simp [skipStep, h0, hp, hl, Input.ret, Input.err, Input.replace]⟩
      | incomplete n =>
        right; left
        cases m <;> by_cases hl : lo = 0 <;>
          exact ⟨_, w1, by simp [h0, M.bind_apply, hp, hl, Input.isLastSlice]; rfl,
            by simp [skipStep, h0, hp, hl, Input.ret, Input.incomplete]⟩
    | panic => right; right; left; exact ⟨by simp [h0, M.bind_apply, hp], by simp [skipStep, h0, hp]⟩
    | ub =>
      right; right; right; left; exact ⟨by simp [h0, M.bind_apply, hp], by simp [skipStep, h0, hp]⟩
    | div =>
      right; right; right; right; exact ⟨by simp [h0, M.bind_apply, hp], by simp [skipStep, h0, hp]⟩

theorem skipManyExactly_loop (n : Nat) (p : Parser σ I U E) (i : Input I) (w : σ) :
    Bounded.skipManyExactly n p i w = loop (skipStep true p) (i, n, n) w := by
  simp only [Bounded.skipManyExactly]
  refine loop_eq_of (rel := fun s1 s2 => s2 = (s1.1, s1.2, s1.2)) ?_ rfl w
  rintro ⟨⟨m, b⟩, hi⟩ _ w rfl
  by_cases h0 : hi = 0
  · subst h0
    right; left
    exact ⟨_, _, rfl, by simp [skipStep, Input.ret]⟩
  · cases hp : p ⟨m, b⟩ w with
    | ok x =>
      obtain ⟨x, w1⟩ := x
      cases x with
      | data b' v =>
        left
        refine ⟨(b', hi - 1), _, w1, ?_, by simp [skipStep, h0, hp], rfl⟩
        simp [h0, M.bind_apply, hp, dec_ok h0, M.map_apply]
      | error b' e =>
        right; left
        exact ⟨_, w1, by simp [h0, M.bind_apply, hp]; rfl,
          by simp [skipStep, h0, hp, Input.err, Input.replace]⟩
      | incomplete n =>
        right; left
        by_cases hn : n = 0
        · exact ⟨_, w1, by simp [h0, M.bind_apply, hp, hn]; rfl,
            by simp [skipStep, h0, hp, hn, Input.ret]⟩
        · exact ⟨_, w1, by simp [h0, M.bind_apply, hp, hn]; rfl,
            by simp [skipStep, h0, hp, hn, Input.incomplete]⟩
    | panic => right; right; left; exact ⟨by simp [h0, M.bind_apply, hp], by simp [skipStep, h0, hp]⟩
    | ub =>
      right; right; right; left; exact ⟨by simp [h0, M.bind_apply, hp], by simp [skipStep, h0, hp]⟩
    | div =>
      right; right; right; right; exact ⟨by simp [h0, M.bind_apply, hp], by simp [skipStep, h0, hp]⟩

/-- All shapes of `skip_many`. -/
theorem skipMany_shapes (r : Bounded.Range) (p : Parser σ I U E) :
    (∃ lo hi, Bounded.skipMany r p = core (unit U) p lo hi) ∨
    (∃ z lo hi, Bounded.skipMany r p = fun i w => loop (skipStep z p) (i, lo, hi) w) ∨
    (¬ Ordered r ∧ Bounded.skipMany r p = fun _ _ => .panic) := by
  cases r with
  | range a b =>
    by_cases h : a ≤ b
    · right; left
      exact ⟨false, a, b - 1, by funext i w; exact skipManyRange_eq h p i w⟩
    · right; right
      refine ⟨h, ?_⟩
      funext i w
      simp [Bounded.skipMany, Bounded.skipManyRange, h]
  | exactly n =>
    right; left
    exact ⟨true, n, n, by funext i w; exact skipManyExactly_loop n p i w⟩
  | from_ n => left; exact ⟨_, _, skipMany_eq (by exact True.intro) p⟩
  | full => left; exact ⟨_, _, skipMany_eq (by exact True.intro) p⟩
  | to n => left; exact ⟨_, _, skipMany_eq (by exact True.intro) p⟩

theorem many_shapes (r : Bounded.Range) (c : Collect U T) (p : Parser σ I U E) :
    (∃ lo hi, Bounded.many r c p = core c p lo hi) ∨
    (¬ Ordered r ∧ Bounded.many r c p = fun _ _ => .panic) := by
  by_cases h : ok r
  · exact .inl ⟨_, _, many_eq h c p⟩
  · right
    cases r with
    | range a b =>
      refine ⟨h, ?_⟩
      funext i w
      have h' : ¬ a ≤ b := h
      simp [Bounded.many, Bounded.manyWith, Bounded.manyRange, h']
    | _ => exact absurd True.intro h

end Rep

theorem Till.manyTill_shapes (r : Bounded.Range) (c : Collect U T) (p : Parser σ I U E)
    (e : Parser σ I V N) :
    (Rep.ok r ∧
      Bounded.manyTill r c p e = Till.core c p e (last r) (good r) (Rep.min r) (Rep.max r)) ∨
    (¬ Ordered r ∧ Bounded.manyTill r c p e = fun _ _ => .panic) := by
  by_cases h : Rep.ok r
  · exact .inl ⟨h, manyTill_eq h c p e⟩
  · right
    cases r with
    | range a b =>
      refine ⟨h, ?_⟩
      funext i w
      have h' : ¬ a ≤ b := h
      simp [Bounded.manyTill, Bounded.manyTillWith, Bounded.manyTillRange, h']
    | _ => exact absurd True.intro h

/-! ### Locality and panics -/

namespace Built

/-- A request which is not over the limit. -/
def Within (a : Allow) (n : Nat) : Prop := ∀ K, a.maxRequest = some K → n ≤ max 1 K

theorem within_one (a : Allow) : Within a 1 := fun _ _ => by omega

theorem within_permits {a : Allow} {n m : Nat} (h : a.Permits n) (hm : m ≤ n) : Within a m := by
  intro K hK
  have := h K hK
  omega

/-- The outcome is local to `i`, and a panic only if allowed. -/
def GoodR (a : Allow) (i : Input I) : Res (ParseResult I T E × σ) → Prop
  | .ok (.data j _, _) => j.mode = i.mode ∧ j.buf <:+ i.buf
  | .ok (.error b _, _) => b <:+ i.buf
  | .ok (.incomplete n, _) => Within a n
  | .panic => a.mayPanic = true
  | .ub => True
  | .div => True

def Good (a : Allow) (p : Parser σ I T E) : Prop := ∀ i w, GoodR a i (p i w)

theorem GoodR.trans {a : Allow} {i j : Input I} {x : Res (ParseResult I T E × σ)}
    (h : GoodR a j x) (hm : j.mode = i.mode) (hb : j.buf <:+ i.buf) : GoodR a i x := by
  match x, h with
  | .ok (.data k _, _), h => exact ⟨h.1.trans hm, h.2.trans hb⟩
  | .ok (.error b _, _), h => exact List.IsSuffix.trans h hb
  | .ok (.incomplete _, _), h => exact h
  | .panic, h => exact h
  | .ub, h => exact True.intro
  | .div, h => exact True.intro

theorem good_bind {a : Allow} {i : Input I} {x : Res (ParseResult I T E × σ)} (h : GoodR a i x)
    {k : ParseResult I T E → M σ (ParseResult I U V)}
    (hd : ∀ j t w, j.mode = i.mode → j.buf <:+ i.buf → GoodR a i (k (.data j t) w))
    (he : ∀ b e w, b <:+ i.buf → GoodR a i (k (.error b e) w))
    (hi : ∀ n w, Within a n → GoodR a i (k (.incomplete n) w)) :
    GoodR a i (x >>= fun q => k q.1 q.2) := by
  match x, h with
  | .ok (.data j t, w), h => exact hd j t w h.1 h.2
  | .ok (.error b e, w), h => exact he b e w h
  | .ok (.incomplete n, w), h => exact hi n w h
  | .panic, h => exact h
  | .ub, h => exact True.intro
  | .div, h => exact True.intro

theorem good_refl (i : Input I) : i.mode = i.mode ∧ i.buf <:+ i.buf := ⟨rfl, List.suffix_refl _⟩

theorem good_effect {a : Allow} {i : Input I} {x : Res (A × σ)} (h : x = .panic → a.mayPanic = true)
    {k : A → M σ (ParseResult I U V)} (hk : ∀ x w, GoodR a i (k x w)) :
    GoodR a i (x >>= fun q => k q.1 q.2) := by
  match x, h with
  | .ok (x, w), h => exact hk x w
  | .panic, h => exact h rfl
  | .ub, h => exact True.intro
  | .div, h => exact True.intro

theorem dropWhile_suffix (f : I → Bool) (b : List I) : b.dropWhile f <:+ b :=
  ⟨b.takeWhile f, List.takeWhile_append_dropWhile⟩

/-! #### primitives -/

variable {a : Allow}

theorem good_any : Good a (Parsers.any (σ := σ) (I := I)) := by
  rintro ⟨m, b⟩ w
  rw [Parsers.any_eq]
  cases b with
  | nil => exact within_one a
  | cons c r => exact ⟨rfl, List.suffix_cons c r⟩

theorem good_satisfy (v) (f : I → Bool) : Good a (Parsers.satisfy (σ := σ) v f) := by
  rintro ⟨m, b⟩ w
  rw [Parsers.satisfy_eq]
  cases b with
  | nil => exact within_one a
  | cons c r =>
    by_cases h : f c = true
    · simp only [h, if_true]; exact ⟨rfl, List.suffix_cons c r⟩
    · simp only [h]; exact List.suffix_refl _

theorem good_satisfyWith (v) (f : I → T) (p : T → Bool) :
    Good a (Parsers.satisfyWith (σ := σ) v f p) := by
  rintro ⟨m, b⟩ w
  rw [Parsers.satisfyWith_eq]
  cases b with
  | nil => exact within_one a
  | cons c r =>
    by_cases h : p (f c) = true
    · simp only [h, if_true]; exact ⟨rfl, List.suffix_cons c r⟩
    · simp only [h]; exact List.suffix_refl _

theorem good_token [DecidableEq I] (v) (t : I) : Good a (Parsers.token (σ := σ) v t) := by
  rintro ⟨m, b⟩ w
  rw [Parsers.token_eq]
  cases b with
  | nil => exact within_one a
  | cons c r =>
    by_cases h : t = c
    · simp only [h, if_true]; exact ⟨rfl, List.suffix_cons c r⟩
    · simp only [h, if_false]; exact List.suffix_refl _

theorem good_notToken [DecidableEq I] (v) (t : I) : Good a (Parsers.notToken (σ := σ) v t) := by
  rintro ⟨m, b⟩ w
  rw [Parsers.notToken_eq]
  cases b with
  | nil => exact within_one a
  | cons c r =>
    by_cases h : t = c
    · simp only [h, if_true]; exact List.suffix_refl _
    · simp only [h, if_false]; exact ⟨rfl, List.suffix_cons c r⟩

theorem good_peekNext : Good a (Parsers.peekNext (σ := σ) (I := I)) := by
  rintro ⟨m, b⟩ w
  rw [Parsers.peekNext_eq]
  cases b with
  | nil => exact within_one a
  | cons c r => exact good_refl _

theorem good_take (n) (hk : a.Permits n) : Good a (Parsers.take (σ := σ) (I := I) n) := by
  rintro ⟨m, b⟩ w
  rw [Parsers.take_eq]
  by_cases h : n ≤ b.length
  · simp only [h, if_true]; exact ⟨rfl, List.drop_suffix _ _⟩
  · simp only [h, if_false]; exact within_permits hk (by omega)

theorem good_takeWhile (f : I → Bool) : Good a (Parsers.takeWhile (σ := σ) f) := by
  rintro ⟨m, b⟩ w
  rw [Parsers.takeWhile_eq]
  split
  · exact within_one a
  · exact ⟨rfl, dropWhile_suffix _ _⟩

theorem good_takeWhile1 (v) (f : I → Bool) : Good a (Parsers.takeWhile1 (σ := σ) v f) := by
  rintro ⟨m, b⟩ w
  rw [Parsers.takeWhile1_eq]
  cases b with
  | nil => exact within_one a
  | cons c r =>
    dsimp only
    split
    · exact List.suffix_refl _
    · split
      · exact within_one a
      · exact ⟨rfl, dropWhile_suffix _ _⟩

theorem good_takeTill (f : I → Bool) : Good a (Parsers.takeTill (σ := σ) f) := by
  rintro ⟨m, b⟩ w
  rw [Parsers.takeTill_eq]
  split
  · exact ⟨rfl, dropWhile_suffix _ _⟩
  · exact within_one a

theorem good_scan (s : S) (f : S → I → Option S) : Good a (Parsers.scan (σ := σ) s f) := by
  rintro ⟨m, b⟩ w
  rcases Parsers.scan_cases f b s with ⟨s', h⟩ | ⟨x, c, y, s', rfl, hx, hc⟩
  · rw [Parsers.scan_none w h]; exact within_one a
  · rw [Parsers.scan_stop w hx hc]; exact ⟨rfl, x, rfl⟩

theorem good_runScanner (s : S) (f : S → I → Option S) :
    Good a (Parsers.runScanner (σ := σ) s f) := by
  rintro ⟨m, b⟩ w
  rcases Parsers.scan_cases f b s with ⟨s', h⟩ | ⟨x, c, y, s', rfl, hx, hc⟩
  · rw [Parsers.runScanner_none w h]; exact within_one a
  · rw [Parsers.runScanner_stop w hx hc]; exact ⟨rfl, x, rfl⟩

theorem good_string [DecidableEq I] (v) (s : List I) (hk : a.Permits s.length) : Good a (Parsers.string (σ := σ) v s) := by
  rintro ⟨m, b⟩ w
  rcases Parsers.string_cases s b with h | ⟨r, rfl⟩ | ⟨x, t, c, s', r, rfl, rfl, hn, hl⟩
  · rw [Parsers.string_short w h]; exact within_permits hk (by omega)
  · rw [Parsers.string_match w]; exact ⟨rfl, s, rfl⟩
  · rw [Parsers.string_mismatch w hn hl]
    cases v
    · exact ⟨x, rfl⟩
    · exact List.suffix_refl _

theorem good_settles {c : Bool} {K : Nat} {Q : Abrupt → Prop} {p : Parser σ I T E}
    (h : Closures.Settles c K Q p) (hk : Within a K) (hq : Q .panic → a.mayPanic = true) : Good a p := by
  rintro ⟨m, b⟩ w
  rcases h b w with ⟨r, t, w', hr, _, h⟩ | ⟨r, e, w', hr, h⟩ | ⟨x, hx, h⟩ | ⟨n, w', _, hn, h1, h2, _⟩
  · have := h m []; simp only [List.append_nil] at this; rw [this]; exact ⟨rfl, hr⟩
  · have := h m []; simp only [List.append_nil] at this; rw [this]; exact hr
  · have := h m []; simp only [List.append_nil] at this; rw [this]
    cases x with
    | panic => exact hq hx
    | ub => exact True.intro
    | div => exact True.intro
  · have hn' : Within a n := fun k hk' => Nat.le_trans hn (hk k hk')
    cases m with
    | default => rw [h1]; exact hn'
    | endOfInput =>
      rcases h2 with h2 | ⟨t, _, h2⟩ <;> rw [h2]
      · exact hn'
      · exact ⟨rfl, List.nil_suffix⟩

theorem may {x : Prop} (h : a.mayPanic = false → ¬ x) (hx : x) : a.mayPanic = true := by
  cases hm : a.mayPanic with
  | true => rfl
  | false => exact absurd hx (h hm)

/-! #### combinators -/

theorem good_bindP {p : Parser σ I T E} {conv : E → V} {f : T → Parser σ I U V}
    (hp : Good a p) (hf : ∀ t, Good a (f t)) : Good a (Parser.bind conv p f) := by
  intro i w
  refine good_bind (k := fun r => r.bind conv (fun i t => f t i)) (hp i w) ?_ ?_ ?_
  · intro j t w hm hb
    rw [ParseResult.bind_data]
    exact (hf t j w).trans hm hb
  · intro b e w hb; exact hb
  · intro n w hn; exact hn

theorem good_core {p : Parser σ I U E} (hp : Good a p) (c : Collect U T) (lo : Nat)
    (hi : Option Nat) : Good a (Rep.core c p lo hi) := by
  intro i w
  have final : ∀ (t : T) (j : Input I) lo hi n (w : σ), j.mode = i.mode → j.buf <:+ i.buf →
      Within a n → GoodR (E := E) a i (.ok (Rep.final t j lo hi n, w)) := by
    intro t j lo hi n w h1 h2 h3
    unfold Rep.final
    split
    · exact ⟨h1, h2⟩
    · exact h3
  unfold Rep.core
  cases c.start with
  | inr t => exact final t i lo hi 1 w rfl (List.suffix_refl _) (within_one a)
  | inl acc =>
    refine loop_inv (P := fun s _ => s.2.1.mode = i.mode ∧ s.2.1.buf <:+ i.buf)
      (Q := GoodR a i) True.intro ?_ (good_refl i)
    rintro ⟨acc, j, lo, hi⟩ w ⟨hm, hb⟩
    dsimp only at hm hb
    by_cases h0 : hi = some 0
    · right
      rw [loop_apply]
      simp only [Rep.step, h0, if_true, Res.bind_ok]
      exact final _ _ _ _ _ _ hm hb (within_one a)
    · have := hp j w
      match hr : p j w, this with
      | .ok (.data k v, w1), this =>
        cases hf : c.feed acc v with
        | inl acc' =>
          left
          exact ⟨_, w1, by simp [Rep.step, h0, hr, hf]; rfl, this.1.trans hm, this.2.trans hb⟩
        | inr t =>
          right
          rw [loop_apply]
          simp only [Rep.step, h0, if_false, hr, hf, Res.bind_ok]
          exact final _ _ _ _ _ _ (this.1.trans hm) (this.2.trans hb) (within_one a)
      | .ok (.error b e, w1), this =>
        right
        rw [loop_apply]
        simp only [Rep.step, h0, if_false, hr, Res.bind_ok]
        split
        · exact ⟨hm, hb⟩
        · exact List.IsSuffix.trans this hb
      | .ok (.incomplete n, w1), this =>
        right
        rw [loop_apply]
        simp only [Rep.step, h0, if_false, hr, Res.bind_ok]
        exact final _ _ _ _ _ _ hm hb this
      | .panic, this =>
        right
        rw [loop_apply]
        simp only [Rep.step, h0, if_false, hr, Res.bind_panic]
        exact this
      | .ub, this =>
        right
        rw [loop_apply]
        simp only [Rep.step, h0, if_false, hr, Res.bind_ub]
        exact True.intro
      | .div, this =>
        right
        rw [loop_apply]
        simp only [Rep.step, h0, if_false, hr, Res.bind_div]
        exact True.intro

theorem good_skip {p : Parser σ I U E} (hp : Good a p) (z : Bool) (lo hi : Nat) :
    Good a (fun i w => loop (Rep.skipStep z p) (i, lo, hi) w) := by
  intro i w
  refine loop_inv (P := fun s _ => s.1.mode = i.mode ∧ s.1.buf <:+ i.buf)
    (Q := GoodR a i) True.intro ?_ (good_refl i)
  rintro ⟨j, lo, hi⟩ w ⟨hm, hb⟩
  dsimp only at hm hb
  by_cases h0 : hi = 0
  · right
    rw [loop_apply]
    simp only [Rep.skipStep, h0, if_true, Res.bind_ok]
    exact ⟨hm, hb⟩
  · have := hp j w
    match hr : p j w, this with
    | .ok (.data k v, w1), this =>
      left
      exact ⟨_, w1, by simp [Rep.skipStep, h0, hr]; rfl, this.1.trans hm, this.2.trans hb⟩
    | .ok (.error b e, w1), this =>
      right
      rw [loop_apply]
      simp only [Rep.skipStep, h0, if_false, hr, Res.bind_ok]
      split
      · exact ⟨hm, hb⟩
      · exact List.IsSuffix.trans this hb
    | .ok (.incomplete n, w1), this =>
      right
      rw [loop_apply]
      simp only [Rep.skipStep, h0, if_false, hr, Res.bind_ok]
      split
      · exact ⟨hm, hb⟩
      · exact this
    | .panic, this =>
      right
      rw [loop_apply]
      simp only [Rep.skipStep, h0, if_false, hr, Res.bind_panic]
      exact this
    | .ub, this =>
      right
      rw [loop_apply]
      simp only [Rep.skipStep, h0, if_false, hr, Res.bind_ub]
      exact True.intro
    | .div, this =>
      right
      rw [loop_apply]
      simp only [Rep.skipStep, h0, if_false, hr, Res.bind_div]
      exact True.intro

theorem good_many {p : Parser σ I U E} (hp : Good a p) (r) (c : Collect U T)
    (hr : a.mayPanic = false → Ordered r) : Good a (Bounded.many r c p) := by
  rcases Rep.many_shapes r c p with ⟨lo, hi, h⟩ | ⟨hn, h⟩
  · rw [h]; exact good_core hp c lo hi
  · rw [h]; intro i w
    show a.mayPanic = true
    cases hm : a.mayPanic with
    | true => rfl
    | false => exact absurd (hr hm) hn

theorem good_skipMany {p : Parser σ I U E} (hp : Good a p) (r)
    (hr : a.mayPanic = false → Ordered r) : Good a (Bounded.skipMany r p) := by
  rcases Rep.skipMany_shapes r p with ⟨lo, hi, h⟩ | ⟨z, lo, hi, h⟩ | ⟨hn, h⟩
  · rw [h]; exact good_core hp _ lo hi
  · rw [h]; exact good_skip hp z lo hi
  · rw [h]; intro i w
    show a.mayPanic = true
    cases hm : a.mayPanic with
    | true => rfl
    | false => exact absurd (hr hm) hn

/-- Outcome of testing for the end. -/
def TestR (a : Allow) (n : Nat) (i : Input I) : Res (Option (Input I) × σ) → Prop
  | .ok (some j, _) => n ≠ 0 ∧ j.mode = i.mode ∧ j.buf <:+ i.buf
  | .ok (none, _) => True
  | .panic => a.mayPanic = true
  | .ub => True
  | .div => True

theorem good_test {e : Parser σ I V N} (he : Good a e) (i : Input I) :
    ∀ n w, TestR a n i (Till.test e n i w) := by
  intro n
  induction n with
  | zero => intro w; exact True.intro
  | succ n ih =>
    intro w
    unfold Till.test
    have := he i w
    have next : ∀ w, TestR a (n + 1) i (Till.test e n i w) := by
      intro w
      have ih' := ih w
      match Till.test e n i w, ih' with
      | .ok (some j, _), h => exact ⟨by omega, h.2⟩
      | .ok (none, _), _ => exact True.intro
      | .panic, h => exact h
      | .ub, h => exact True.intro
      | .div, h => exact True.intro
    match hr : e i w, this with
    | .ok (.data k v, w1), this => exact ⟨by omega, this⟩
    | .ok (.error b e, w1), this => exact next w1
    | .ok (.incomplete n, w1), this => exact next w1
    | .panic, this => exact this
    | .ub, this => exact True.intro
    | .div, this => exact True.intro

theorem good_till {p : Parser σ I U E} {e : Parser σ I V N} (hp : Good a p) (he : Good a e)
    (r) (c : Collect U T) (hr : a.mayPanic = false → TillRange r) :
    Good a (Bounded.manyTill r c p e) := by
  intro i w
  rcases Till.manyTill_shapes r c p e with ⟨hok, h⟩ | ⟨hn, h⟩
  · rw [h]
    unfold Till.core
    cases c.start with
    | inr t => exact within_one a
    | inl acc =>
      refine loop_inv (P := fun s _ => s.2.1.mode = i.mode ∧ s.2.1.buf <:+ i.buf ∧
          (a.mayPanic = false → ∀ h, s.2.2.2 = some h → s.2.2.1 ≤ h))
        (Q := GoodR a i) True.intro ?_ ⟨rfl, List.suffix_refl _, ?_⟩
      · rintro ⟨acc, j, lo, hi⟩ w ⟨hm, hb, hle⟩
        dsimp only at hm hb hle
        have ht := good_test he j (Till.triesAt (Till.last r) lo hi) w
        match hx : Till.test e (Till.triesAt (Till.last r) lo hi) j w, ht with
        | .ok (some k, w0), ht =>
          right
          rw [loop_apply]
          simp only [Till.step, hx, Res.bind_ok]
          cases hg : Till.good r lo hi with
          | true => exact ⟨ht.2.1.trans hm, ht.2.2.trans hb⟩
          | false =>
            show a.mayPanic = true
            cases hmp : a.mayPanic with
            | true => rfl
            | false =>
              exfalso
              have hr' := hr hmp
              have hle' := hle hmp
              have hlo : lo = 0 := by
                have h1 := ht.1
                unfold Till.triesAt at h1
                by_cases hl : lo = 0
                · exact hl
                · by_cases hh : hi = some 0
                  · have := hle' 0 hh; omega
                  · simp [hh, hl] at h1
              subst hlo
              cases r <;> simp_all [Till.good, TillRange]
        | .ok (none, w0), ht =>
          by_cases h0 : hi = some 0
          · right
            rw [loop_apply]
            rw [h0] at hx
            simp only [Till.step, hx, h0, if_true, Res.bind_ok]
            exact within_one a
          · have := hp j w0
            match hr : p j w0, this with
            | .ok (.data k v, w1), this =>
              cases hf : c.feed acc v with
              | inl acc' =>
                left
                refine ⟨_, w1, by simp [Till.step, hx, h0, hr, hf]; rfl, this.1.trans hm,
                  this.2.trans hb, ?_⟩
                intro hmp h hh
                dsimp only at hh ⊢
                cases hi with
                | none => cases hh
                | some h1 =>
                  have := hle hmp h1 rfl
                  simp at hh
                  omega
              | inr t =>
                right
                rw [loop_apply]
                simp only [Till.step, hx, h0, if_false, hr, hf, Res.bind_ok]
                exact within_one a
            | .ok (.error b e, w1), this =>
              right
              rw [loop_apply]
              simp only [Till.step, hx, h0, if_false, hr, Res.bind_ok]
              exact List.IsSuffix.trans this hb
            | .ok (.incomplete n, w1), this =>
              right
              rw [loop_apply]
              simp only [Till.step, hx, h0, if_false, hr, Res.bind_ok]
              exact this
            | .panic, this =>
              right
              rw [loop_apply]
              simp only [Till.step, hx, h0, if_false, hr, Res.bind_panic, Res.bind_ok]
              exact this
            | .ub, this =>
              right
              rw [loop_apply]
              simp only [Till.step, hx, h0, if_false, hr, Res.bind_ub, Res.bind_ok]
              exact True.intro
            | .div, this =>
              right
              rw [loop_apply]
              simp only [Till.step, hx, h0, if_false, hr, Res.bind_div, Res.bind_ok]
              exact True.intro
        | .panic, ht =>
          right
          rw [loop_apply]
          simp only [Till.step, hx, Res.bind_panic]
          exact ht
        | .ub, ht =>
          right
          rw [loop_apply]
          simp only [Till.step, hx, Res.bind_ub]
          exact True.intro
        | .div, ht =>
          right
          rw [loop_apply]
          simp only [Till.step, hx, Res.bind_div]
          exact True.intro
      · intro hmp h hh
        have := hr hmp
        cases r <;> simp_all [Rep.min, Rep.max, TillRange]
        omega
  · rw [h]
    show a.mayPanic = true
    cases hm : a.mayPanic with
    | true => rfl
    | false =>
      have := hr hm
      cases r <;> simp_all [Ordered, TillRange]
      omega

theorem good_sepThen {p : Parser σ I U E} {sep : Parser σ I V N} (conv : N → E) (hp : Good a p)
    (hs : Good a sep) : Good a (sepThen conv p sep) := by
  intro i w
  unfold sepThen
  have := hs i w
  match hr : sep i w, this with
  | .ok (.data k v, w1), this => exact (hp k w1).trans this.1 this.2
  | .ok (.error b e, w1), this => exact this
  | .ok (.incomplete n, w1), this => exact this
  | .panic, this => exact this
  | .ub, this => exact True.intro
  | .div, this => exact True.intro

theorem good_flag {i : Input I} {f : Bool} {x : Res (ParseResult I U E × σ)} (h : GoodR a i x) :
    GoodR a i (Sep.flag f x) := by
  match x, h with
  | .ok (.data k v, w1), this => exact this
  | .ok (.error b e, w1), this => exact this
  | .ok (.incomplete n, w1), this => exact this
  | .panic, this => exact this
  | .ub, this => exact True.intro
  | .div, this => exact True.intro

theorem good_sepParser {p : Parser σ I U E} {sep : Parser σ I V N} (conv : N → E) (hp : Good a p)
    (hs : Good a sep) : Good a (Comb.sepParser conv p sep) := by
  rintro i ⟨w, f⟩
  rw [Sep.sepParser_eq]
  apply good_flag
  cases f
  · exact hp i w
  · exact good_sepThen conv hp hs i w

theorem good_newLocal {i : Input I} {x : M (σ × Bool) (ParseResult I U E)} {t : Bool} {w : σ}
    (h : GoodR a i (x (w, t))) : GoodR a i (Comb.newLocal t x w) := by
  rw [Sep.newLocal_eq]
  match x (w, t), h with
  | .ok (.data k v, w1), this => exact this
  | .ok (.error b e, w1), this => exact this
  | .ok (.incomplete n, w1), this => exact this
  | .panic, this => exact this
  | .ub, this => exact True.intro
  | .div, this => exact True.intro

theorem good_matchedBy {p : Parser σ I T E} (hp : Good a p) : Good a (Comb.matchedBy p) := by
  intro i w
  unfold Comb.matchedBy
  rw [M.bind_apply]
  have := hp i w
  match hr : p i w, this with
  | .ok (.data k v, w1), this =>
    dsimp only [Res.bind_ok]
    have hl := this.2.length_le
    rw [usub_ok hl, M.bind_ok (M.lift_ok _ _), M.bind_ok (sliceTo_ok (by omega) _)]
    exact this
  | .ok (.error b e, w1), this => exact this
  | .ok (.incomplete n, w1), this => exact this
  | .panic, this => exact this
  | .ub, this => exact True.intro
  | .div, this => exact True.intro

theorem toDecimal_ne_panic {N : Ascii.Num T} (hN : Total N) : ∀ (b : List UInt8) (x : T),
    (∀ c ∈ b, Ascii.isDigit c = true) →
    b.foldlM (fun a n => do
      let x ← N.mul a (N.fromU8 10)
      let d ← Ascii.digitValue n
      N.add x (N.fromU8 d)) x ≠ Res.panic := by
  intro b
  induction b with
  | nil => intro x _ h; cases h
  | cons c b ih =>
    intro x hb
    rw [List.foldlM_cons]
    have hc : (48 : UInt8) ≤ c := by
      have := hb c (by simp)
      simp [Ascii.isDigit] at this
      exact this.1
    cases h1 : N.mul x (N.fromU8 10) with
    | panic => exact absurd h1 (hN.2 _ _)
    | ok y =>
      simp only [Res.bind_ok, Ascii.digitValue, hc, if_true]
      cases h2 : N.add y (N.fromU8 (c - 48)) with
      | panic => exact absurd h2 (hN.1 _ _)
      | ok z => exact ih z (fun d hd => hb d (by simp [hd]))
      | _ => simp
    | _ => simp

theorem all_takeWhile (f : I → Bool) (b : List I) : ∀ c ∈ b.takeWhile f, f c = true := by
  induction b with
  | nil => simp
  | cons x b ih =>
    intro c hc
    rw [List.takeWhile_cons] at hc
    split at hc
    · rcases List.mem_cons.mp hc with rfl | h
      · assumption
      · exact ih c h
    · simp at hc

theorem good_lift {x : Res A} (h : x = .panic → a.mayPanic = true) (w : σ) :
    (M.lift x : M σ A) w = .panic → a.mayPanic = true := by
  cases x <;> simp_all

theorem good_decimal (v) (N : Ascii.Num T) (hN : a.mayPanic = false → Total N) :
    Good a (Ascii.decimal (σ := σ) v N) := by
  intro i w
  unfold Ascii.decimal Parser.bind
  rw [M.bind_apply]
  have hg := good_takeWhile1 (a := a) (σ := σ) v Ascii.isDigit i w
  have hv : ∀ j t w', Parsers.takeWhile1 v Ascii.isDigit i w = .ok (.data j t, w') →
      ∀ c ∈ t, Ascii.isDigit c = true := by
    intro j t w' h
    rw [Parsers.takeWhile1_eq] at h
    obtain ⟨m, b⟩ := i
    cases b with
    | nil => cases h
    | cons c r =>
      dsimp only at h
      split at h
      · cases h
      · split at h
        · cases h
        · cases h; exact all_takeWhile _ _
  match hr : Parsers.takeWhile1 v Ascii.isDigit i w, hg with
  | .ok (.data k t, w1), this =>
    dsimp only [Res.bind_ok]
    rw [ParseResult.bind_data, M.bind_apply]
    refine good_effect (k := fun x => pure (k.ret x)) (good_lift ?_ w1) ?_
    · intro h
      cases hm : a.mayPanic with
      | true => rfl
      | false => exact absurd h (toDecimal_ne_panic (hN hm) t _ (hv k t w1 hr))
    · intro x w; exact this
  | .ok (.error b e, w1), this => exact this
  | .ok (.incomplete n, w1), this => exact this
  | .panic, this => exact this
  | .ub, this => exact True.intro
  | .div, this => exact True.intro

theorem good_option {p : Parser σ I T E} (hp : Good a p) (t : T) : Good a (Comb.option p t) := by
  intro i w
  unfold Comb.option
  rw [M.bind_apply]
  refine good_bind (k := fun r => match r with
    | .data b d => pure (b.ret d)
    | .error _ _ => pure (i.ret t)
    | .incomplete n => if i.isLastSlice then pure (i.ret t) else pure (i.incomplete n))
    (hp i w) ?_ ?_ ?_
  · intro j t w h1 h2; exact ⟨h1, h2⟩
  · intro b e w h; exact good_refl i
  · intro n w hn
    dsimp only
    split
    · exact good_refl i
    · exact hn

theorem good_or {p q : Parser σ I T E} (hp : Good a p) (hq : Good a q) : Good a (Comb.or p q) := by
  intro i w
  unfold Comb.or
  rw [M.bind_apply]
  refine good_bind (k := fun r => match r with
    | .data b d => pure (b.ret d)
    | .error _ _ => q i
    | .incomplete n => if i.isLastSlice then q i else pure (i.incomplete n))
    (hp i w) ?_ ?_ ?_
  · intro j t w h1 h2; exact ⟨h1, h2⟩
  · intro b e w h; exact hq i w
  · intro n w hn
    dsimp only
    split
    · exact hq i w
    · exact hn

theorem good_map {p : Parser σ I T E} (hp : Good a p) (f : T → U) : Good a (Parser.map p f) := by
  intro i w
  refine good_bind (k := fun r => r.map (fun t => pure (f t))) (hp i w) ?_ ?_ ?_
  · intro j t w h1 h2; exact ⟨h1, h2⟩
  · intro b e w h; exact h
  · intro n w hn; exact hn

theorem good_signed (v) (N : Ascii.Num T) (hN : a.mayPanic = false → Total N)
    {p : Parser σ UInt8 T (Error UInt8)} (hp : Good a p) : Good a (Ascii.signed v N p) := by
  intro i w
  unfold Ascii.signed
  rw [M.bind_apply]
  refine good_bind (k := fun r => r.bind id (fun i sign => do
    let q ← p i
    q.map (fun num => M.lift (N.mul sign num)))) (good_option ?_ _ i w) ?_ ?_ ?_
  · exact good_map (good_satisfy v _) _
  · intro j sign w h1 h2
    rw [ParseResult.bind_data, M.bind_apply]
    refine good_bind (k := fun q => q.map (fun num => M.lift (N.mul sign num)))
      ((hp j w).trans h1 h2) ?_ ?_ ?_
    · intro j' t w h1 h2
      refine good_effect (k := fun u => pure (.data j' u)) (good_lift ?_ w) ?_
      · intro h
        cases hm : a.mayPanic with
        | true => rfl
        | false => exact absurd h ((hN hm).2 _ _)
      · intro x w; exact ⟨h1, h2⟩
    · intro b e w h; exact h
    · intro n w hn; exact hn
  · intro b e w h; exact h
  · intro n w hn; exact hn

/-- Every parser assembled from the library is local and panics only if allowed. -/
theorem good {σ I T E : Type} {p : Parser σ I T E} (h : Built a p) : Good a p := by
  induction h with
  | ret t => intro i w; exact good_refl i
  | err e => intro i w; exact List.suffix_refl _
  | fromResult r =>
    intro i w
    cases r with
    | ok t => exact good_refl i
    | error e => exact List.suffix_refl _
  | incomplete n h hk => intro i w; exact within_permits hk (Nat.le_refl _)
  | bind _ _ ihp ihf => exact good_bindP ihp ihf
  | andThen _ _ ihp ihq => exact good_bindP (f := fun _ => _) ihp (fun _ => ihq)
  | map f _ ih => exact good_map ih f
  | mapErr f _ ih =>
    intro i w
    refine good_bind (k := fun r => r.mapErr (fun t => pure (f t))) (ih i w) ?_ ?_ ?_
    · intro j t w h1 h2; exact ⟨h1, h2⟩
    · intro b e w h; exact h
    · intro n w hn; exact hn
  | inspect f hf _ ih =>
    intro i w
    refine good_bind (k := fun r => r.inspect f) (ih i w) ?_ ?_ ?_
    · intro j t w h1 h2
      refine good_effect (k := fun _ => pure (.data j t)) ?_ ?_
      · intro h
        cases hm : a.mayPanic with
        | true => rfl
        | false => exact absurd h (hf hm t w)
      · intro x w; exact ⟨h1, h2⟩
    · intro b e w h; exact h
    · intro n w hn; exact hn
  | effect hg _ ih =>
    intro i w
    refine good_effect (k := fun x => _) ?_ (fun x w => ih x i w)
    intro h
    cases hm : a.mayPanic with
    | true => rfl
    | false => exact absurd h (hg hm w)
  | any => exact good_any
  | satisfy v f => exact good_satisfy v f
  | satisfyWith v f p => exact good_satisfyWith v f p
  | token v t => exact good_token v t
  | notToken v t => exact good_notToken v t
  | peek _ => intro i w; exact good_refl i
  | peekNext => exact good_peekNext
  | take n hk => exact good_take n hk
  | takeWhile f => exact good_takeWhile f
  | takeWhile1 v f => exact good_takeWhile1 v f
  | takeTill f => exact good_takeTill f
  | scan s f => exact good_scan s f
  | runScanner s f => exact good_runScanner s f
  | takeRemainder _ =>
    intro i w
    rw [Parsers.takeRemainder_eq]
    exact ⟨rfl, List.nil_suffix⟩
  | string v s hk => exact good_string v s hk
  | eof v _ =>
    intro i w
    rw [Parsers.eof_eq]
    split
    · exact good_refl i
    · exact List.suffix_refl _
  | mapM f hf _ ih =>
    intro i w
    refine good_bind (k := fun r => r.map f) (ih i w) ?_ ?_ ?_
    · intro j t w h1 h2
      refine good_effect (k := fun u => pure (.data j u)) (may fun h => hf h t w) ?_
      intro x w; exact ⟨h1, h2⟩
    · intro b e w h; exact h
    · intro n w hn; exact hn
  | mapErrM f hf _ ih =>
    intro i w
    refine good_bind (k := fun r => r.mapErr f) (ih i w) ?_ ?_ ?_
    · intro j t w h1 h2; exact ⟨h1, h2⟩
    · intro b e w h
      refine good_effect (k := fun u => pure (.error b u)) (may fun h => hf h e w) ?_
      intro x w; exact h
    · intro n w hn; exact hn
  | satisfyM v f hf =>
    exact good_settles (Closures.settles_satisfy v f) (within_one a)
      (may fun h ⟨c, w, e⟩ => hf h c w e)
  | satisfyWithM v f p hf =>
    refine good_settles (Closures.settles_satisfyWith v f p) (within_one a) (may fun h => ?_)
    rintro (⟨c, w, e⟩ | ⟨t, w, e⟩)
    · exact (hf h).1 c w e
    · exact (hf h).2 t w e
  | tokenM eq v t hf =>
    exact good_settles (Closures.settles_token eq v t) (within_one a)
      (may fun h ⟨c, w, e⟩ => hf h c w e)
  | notTokenM ne v t hf =>
    exact good_settles (Closures.settles_notToken ne v t) (within_one a)
      (may fun h ⟨c, w, e⟩ => hf h c w e)
  | takeWhileM f hf =>
    exact good_settles (Closures.settles_takeWhile f) (within_one a)
      (may fun h ⟨c, w, e⟩ => hf h c w e)
  | takeWhile1M v f hf =>
    exact good_settles (Closures.settles_takeWhile1 v f) (within_one a)
      (may fun h ⟨c, w, e⟩ => hf h c w e)
  | takeTillM f hf =>
    exact good_settles (Closures.settles_takeTill f) (within_one a)
      (may fun h ⟨c, w, e⟩ => hf h c w e)
  | scanM s f hf =>
    exact good_settles (Closures.settles_scan s f) (within_one a)
      (may fun h ⟨s, c, w, e⟩ => hf h s c w e)
  | runScannerM s f hf =>
    exact good_settles (Closures.settles_runScanner s f) (within_one a)
      (may fun h ⟨s, c, w, e⟩ => hf h s c w e)
  | stringM ne v s hk hf =>
    exact good_settles (Closures.settles_string ne v s) (within_permits hk (Nat.le_refl _))
      (may fun h ⟨t, c, w, e⟩ => hf h t c w e)
  | count n c _ ih => exact good_many ih (.exactly n) c (fun _ => True.intro)
  | option t _ ih => exact good_option ih t
  | or _ _ ihp ihq => exact good_or ihp ihq
  | many c _ ih => exact good_many ih .full c (fun _ => True.intro)
  | many1 c _ ih => exact good_many ih (.from_ 1) c (fun _ => True.intro)
  | sepBy conv c _ _ ihp ihs =>
    intro i w
    exact good_newLocal (good_many (good_sepParser conv ihp ihs) .full c (fun _ => True.intro) i _)
  | sepBy1 conv c _ _ ihp ihs =>
    intro i w
    exact good_newLocal
      (good_many (good_sepParser conv ihp ihs) (.from_ 1) c (fun _ => True.intro) i _)
  | manyTill c h _ _ ihp ihe => exact good_till ihp ihe .full c (fun _ => True.intro)
  | skipMany _ ih => exact good_skipMany ih .full (fun _ => True.intro)
  | skipMany1 _ ih => exact good_skipMany ih (.from_ 1) (fun _ => True.intro)
  | matchedBy _ ih => exact good_matchedBy ih
  | lookAhead _ ih =>
    intro i w
    unfold Comb.lookAhead
    rw [M.bind_apply]
    refine good_bind (k := fun r => match r with
      | .data _ t => pure (i.ret t)
      | .error b t => pure ((i.replace b).err t)
      | .incomplete n => pure (i.incomplete n)) (ih i w) ?_ ?_ ?_
    · intro j t w h1 h2; exact good_refl i
    · intro b e w h; exact h
    · intro n w hn; exact hn
  | boundedMany r c hr _ ih => exact good_many ih r c hr
  | boundedSkipMany r hr _ ih => exact good_skipMany ih r hr
  | boundedManyTill r c _ hr _ _ ihp ihe => exact good_till ihp ihe r c hr
  | skipWhitespace => exact good_map (good_takeWhile _) _
  | digit v => exact good_satisfy v _
  | decimal v N hN => exact good_decimal v N hN
  | signed v N hN _ ih => exact good_signed v N hN ih
  | endless => intro i w; exact True.intro
  | unfolds q hq _ ih =>
    intro i w
    rw [← hq [(i, w)] (i, w) (List.mem_singleton.mpr rfl)]
    exact ih _ i w

end Built

end Chomp
