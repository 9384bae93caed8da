import Verif.Lemmas.Built

/-
What a parser answers on a slice which is not the last one determines what it answers when more
input follows.
-/

namespace Chomp

open Spec

namespace Built

/-- How the outcome `x` on a slice which is not the last relates to the outcome `y` on the slice
continued by `rest`. -/
def ExtR (m : Mode) (rest : List I) (x y : Res (ParseResult I T E × σ)) : Prop :=
  match x with
  | .ok (.data i t, w) => i.mode = .default ∧ y = .ok (.data ⟨m, i.buf ++ rest⟩ t, w)
  | .ok (.error b e, w) => y = .ok (.error (b ++ rest) e, w)
  | .ok (.incomplete n, w) => 1 ≤ n ∧ (m = .default → rest.length < n →
      ∃ n', y = .ok (.incomplete n', w) ∧ n ≤ n' + rest.length)
  | .panic => y = .panic
  | .ub => y = .ub
  | .div => y = .div

def Ext (p : Parser σ I T E) : Prop :=
  ∀ b m rest w, ExtR m rest (p ⟨.default, b⟩ w) (p ⟨m, b ++ rest⟩ w)

theorem ext_bind {m : Mode} {rest : List I} {x y : Res (ParseResult I T E × σ)}
    (h : ExtR m rest x y) {k1 k2 : ParseResult I T E → M σ (ParseResult I U V)}
    (hd : ∀ r t w, ExtR m rest (k1 (.data ⟨.default, r⟩ t) w) (k2 (.data ⟨m, r ++ rest⟩ t) w))
    (he : ∀ b e w, ExtR m rest (k1 (.error b e) w) (k2 (.error (b ++ rest) e) w))
    (h1 : ∀ n w, k1 (.incomplete n) w = .ok (.incomplete n, w))
    (h2 : m = .default → ∀ n w, k2 (.incomplete n) w = .ok (.incomplete n, w)) :
    ExtR m rest (x >>= fun q => k1 q.1 q.2) (y >>= fun q => k2 q.1 q.2) := by
  match x, h with
  | .ok (.data ⟨m', r⟩ t, w), h =>
    obtain ⟨hm, rfl⟩ := h
    dsimp only at hm; subst hm
    exact hd r t w
  | .ok (.error b e, w), h => cases h; exact he b e w
  | .ok (.incomplete n, w), h =>
    simp only [Res.bind_ok, h1]
    refine ⟨h.1, fun hm hr => ?_⟩
    obtain ⟨n', rfl, hn'⟩ := h.2 hm hr
    exact ⟨n', by simp only [Res.bind_ok, h2 hm], hn'⟩
  | .panic, h => cases h; rfl
  | .ub, h => cases h; rfl
  | .div, h => cases h; rfl

theorem ext_effect {m : Mode} {rest : List I} {x : Res (A × σ)}
    {k1 k2 : A → M σ (ParseResult I U V)} (h : ∀ a w, ExtR m rest (k1 a w) (k2 a w)) :
    ExtR m rest (x >>= fun q => k1 q.1 q.2) (x >>= fun q => k2 q.1 q.2) := by
  match x with
  | .ok (a, w) => exact h a w
  | .panic => rfl
  | .ub => rfl
  | .div => rfl

/-- Asking for one item leaves nothing to show. -/
theorem ext_one {rest : List I} {w : σ} {m : Mode} {f : List I → Mode → Res (ParseResult I T E × σ)}
    {b : List I} (h : f b .default = .ok (.incomplete 1, w)) :
    ExtR m rest (f b .default) (f (b ++ rest) m) := by
  rw [h]
  refine ⟨Nat.le_refl _, fun hm hr => ⟨1, ?_, by omega⟩⟩
  have : rest = [] := List.length_eq_zero_iff.mp (by omega)
  subst this hm
  rw [List.append_nil, h]

/-! #### primitives -/

/-- Parsers which look at the first item only. -/
theorem ext_head {p : Parser σ I T E} (h0 : ∀ m w, p ⟨m, []⟩ w = .ok (.incomplete 1, w))
    (h1 : ∀ c r m rest w, ExtR m rest (p ⟨.default, c :: r⟩ w) (p ⟨m, c :: r ++ rest⟩ w)) :
    Ext p := by
  intro b m rest w
  cases b with
  | nil => exact ext_one (f := fun b m => p ⟨m, b⟩ w) (h0 _ _)
  | cons c r => exact h1 c r m rest w

theorem ext_any : Ext (Parsers.any (σ := σ) (I := I)) :=
  ext_head (fun m w => by rw [Parsers.any_eq]) (fun c r m rest w => by
    rw [Parsers.any_eq, Parsers.any_eq]; exact ⟨rfl, rfl⟩)

theorem ext_satisfy (v) (f : I → Bool) : Ext (Parsers.satisfy (σ := σ) v f) :=
  ext_head (fun m w => by rw [Parsers.satisfy_eq]) (fun c r m rest w => by
    rw [Parsers.satisfy_eq, Parsers.satisfy_eq]
    by_cases h : f c = true
    · simp only [h, List.cons_append, if_true]; exact ⟨rfl, rfl⟩
    · simp only [h, List.cons_append]; exact rfl)

theorem ext_satisfyWith (v) (f : I → T) (p : T → Bool) :
    Ext (Parsers.satisfyWith (σ := σ) v f p) :=
  ext_head (fun m w => by rw [Parsers.satisfyWith_eq]) (fun c r m rest w => by
    rw [Parsers.satisfyWith_eq, Parsers.satisfyWith_eq]
    by_cases h : p (f c) = true
    · simp only [h, List.cons_append, if_true]; exact ⟨rfl, rfl⟩
    · simp only [h, List.cons_append]; exact rfl)

theorem ext_token [DecidableEq I] (v) (t : I) : Ext (Parsers.token (σ := σ) v t) :=
  ext_head (fun m w => by rw [Parsers.token_eq]) (fun c r m rest w => by
    rw [Parsers.token_eq, Parsers.token_eq]
    by_cases h : t = c
    · simp only [h, List.cons_append, if_true]; exact ⟨rfl, rfl⟩
    · simp only [h, List.cons_append, if_false]; exact rfl)

theorem ext_notToken [DecidableEq I] (v) (t : I) : Ext (Parsers.notToken (σ := σ) v t) :=
  ext_head (fun m w => by rw [Parsers.notToken_eq]) (fun c r m rest w => by
    rw [Parsers.notToken_eq, Parsers.notToken_eq]
    by_cases h : t = c
    · simp only [h, List.cons_append, if_true]; exact rfl
    · simp only [h, List.cons_append, if_false]; exact ⟨rfl, rfl⟩)

theorem ext_peekNext : Ext (Parsers.peekNext (σ := σ) (I := I)) :=
  ext_head (fun m w => by rw [Parsers.peekNext_eq]) (fun c r m rest w => by
    rw [Parsers.peekNext_eq, Parsers.peekNext_eq]; exact ⟨rfl, rfl⟩)

theorem ext_take (n) : Ext (Parsers.take (σ := σ) (I := I) n) := by
  intro b m rest w
  rw [Parsers.take_eq, Parsers.take_eq]
  by_cases h : n ≤ b.length
  · have h' : n ≤ (b ++ rest).length := by simp; omega
    simp only [h, h', if_true]
    exact ⟨rfl, by rw [List.drop_append_of_le_length h, List.take_append_of_le_length h]⟩
  · simp only [h, if_false]
    refine ⟨by omega, fun _ hr => ⟨n - (b ++ rest).length, ?_, ?_⟩⟩
    · rw [if_neg (by simp; omega)]
    · simp; omega

theorem ext_settles {c : Bool} {K : Nat} {Q : Abrupt → Prop} {p : Parser σ I T E}
    (h : Closures.Settles c K Q p) : Ext p := by
  intro b m rest w
  rcases h b w with ⟨r, t, w', hr, _, h⟩ | ⟨r, e, w', hr, h⟩ | ⟨x, hx, h⟩ | ⟨n, w', hn, _, h1, h2, h3⟩
  · have := h .default []; simp only [List.append_nil] at this; rw [this, h]; exact ⟨rfl, rfl⟩
  · have := h .default []; simp only [List.append_nil] at this; rw [this, h]; exact rfl
  · have := h .default []; simp only [List.append_nil] at this; rw [this, h]
    cases x <;> exact rfl
  · rw [h1]
    exact ⟨hn, fun hm hr => hm ▸ h3 rest hr⟩

theorem takeWhile_append {f : I → Bool} {b : List I} (h : ¬ b.all f = true) (rest : List I) :
    (b ++ rest).takeWhile f = b.takeWhile f ∧ (b ++ rest).dropWhile f = b.dropWhile f ++ rest ∧
      ¬ (b ++ rest).all f = true := by
  induction b with
  | nil => simp at h
  | cons c b ih =>
    by_cases hc : f c = true
    · have := ih (by simpa [hc] using h)
      simp only [List.cons_append, List.takeWhile_cons, List.dropWhile_cons, hc, if_true,
        List.all_cons, Bool.true_and]
      exact ⟨by rw [this.1], this.2.1, this.2.2⟩
    · simp [hc]

theorem ext_takeWhile (f : I → Bool) : Ext (Parsers.takeWhile (σ := σ) f) := by
  intro b m rest w
  by_cases h : b.all f = true
  · exact ext_one (w := w) (f := fun b m => Parsers.takeWhile f ⟨m, b⟩ w) (by
      rw [Parsers.takeWhile_eq]; simp [h])
  · obtain ⟨h1, h2, h3⟩ := takeWhile_append h rest
    rw [Parsers.takeWhile_eq, Parsers.takeWhile_eq]
    rw [if_neg (fun e => h e.2), if_neg (fun e => h3 e.2)]
    dsimp only
    rw [h1, h2]
    exact ⟨rfl, rfl⟩

theorem ext_takeWhile1 (v) (f : I → Bool) : Ext (Parsers.takeWhile1 (σ := σ) v f) :=
  ext_head (fun m w => by rw [Parsers.takeWhile1_eq]) (fun c r m rest w => by
    by_cases hc : f c = false
    · rw [Parsers.takeWhile1_eq, Parsers.takeWhile1_eq]
      simp only [List.cons_append, hc, if_true]; exact rfl
    · by_cases h : (c :: r).all f = true
      · exact ext_one (w := w) (f := fun b m => Parsers.takeWhile1 v f ⟨m, b⟩ w) (by
          rw [Parsers.takeWhile1_eq]
          dsimp only
          rw [if_neg hc, if_pos ⟨rfl, h⟩])
      · obtain ⟨h1, h2, h3⟩ := takeWhile_append h rest
        rw [Parsers.takeWhile1_eq, Parsers.takeWhile1_eq]
        simp only [List.cons_append] at h1 h2 h3
        dsimp only [List.cons_append]
        rw [if_neg hc, if_neg hc, if_neg (fun e => h e.2), if_neg (fun e => h3 e.2), h1, h2]
        exact ⟨rfl, rfl⟩)

theorem ext_takeTill (f : I → Bool) : Ext (Parsers.takeTill (σ := σ) f) := by
  intro b m rest w
  by_cases h : b.any f = true
  · have h' : ¬ b.all (fun c => !f c) = true := by
      rw [List.any_eq_not_all_not] at h; simpa using h
    obtain ⟨h1, h2, h3⟩ := takeWhile_append h' rest
    rw [Parsers.takeTill_eq, Parsers.takeTill_eq]
    have h4 : (b ++ rest).any f = true := by rw [List.any_append, h]; rfl
    simp only [h, h4, if_true, h1, h2]
    exact ⟨rfl, rfl⟩
  · exact ext_one (f := fun b m => Parsers.takeTill f ⟨m, b⟩ w) (by
      rw [Parsers.takeTill_eq]; simp only [h]; rfl)

theorem ext_scan (s : S) (f : S → I → Option S) : Ext (Parsers.scan (σ := σ) s f) := by
  intro b m rest w
  rcases Parsers.scan_cases f b s with ⟨s', h⟩ | ⟨x, c, y, s', rfl, hx, hc⟩
  · exact ext_one (f := fun b m => Parsers.scan s f ⟨m, b⟩ w) (Parsers.scan_none w h)
  · rw [List.append_assoc, List.cons_append, Parsers.scan_stop w hx hc, Parsers.scan_stop w hx hc]
    exact ⟨rfl, rfl⟩

theorem ext_runScanner (s : S) (f : S → I → Option S) :
    Ext (Parsers.runScanner (σ := σ) s f) := by
  intro b m rest w
  rcases Parsers.scan_cases f b s with ⟨s', h⟩ | ⟨x, c, y, s', rfl, hx, hc⟩
  · exact ext_one (f := fun b m => Parsers.runScanner s f ⟨m, b⟩ w) (Parsers.runScanner_none w h)
  · rw [List.append_assoc, List.cons_append, Parsers.runScanner_stop w hx hc,
      Parsers.runScanner_stop w hx hc]
    exact ⟨rfl, rfl⟩

theorem ext_string [DecidableEq I] (v) (s : List I) : Ext (Parsers.string (σ := σ) v s) := by
  intro b m rest w
  rcases Parsers.string_cases s b with h | ⟨r, rfl⟩ | ⟨x, t, c, s', r, rfl, rfl, hn, hl⟩
  · rw [Parsers.string_short w h]
    refine ⟨by dsimp only; omega, fun hm hr => ⟨s.length - (b ++ rest).length, ?_, ?_⟩⟩
    · rw [Parsers.string_short w (by simp only [List.length_append] at hr ⊢; omega)]
    · simp only [List.length_append]; omega
  · rw [List.append_assoc, Parsers.string_match w, Parsers.string_match w]; exact ⟨rfl, rfl⟩
  · rw [List.append_assoc, List.cons_append, Parsers.string_mismatch w hn hl,
      Parsers.string_mismatch w hn (by simp only [List.length_append]; omega)]
    cases v
    · exact rfl
    · show _ = _
      simp

/-! #### combinators -/

theorem ext_bindP {p : Parser σ I T E} {conv : E → V} {f : T → Parser σ I U V}
    (hp : Ext p) (hf : ∀ t, Ext (f t)) : Ext (Parser.bind conv p f) := by
  intro b m rest w
  refine ext_bind (k1 := fun r => r.bind conv (fun i t => f t i))
    (k2 := fun r => r.bind conv (fun i t => f t i)) (hp b m rest w) ?_ ?_ ?_ ?_
  · intro r t w
    rw [ParseResult.bind_data, ParseResult.bind_data]
    exact hf t r m rest w
  · intro b e w; exact rfl
  · intro n w; rfl
  · intro _ n w; rfl

theorem ext_core {p : Parser σ I U E} (hp : Ext p) (c : Collect U T) (lo : Nat)
    (hi : Option Nat) : Ext (Rep.core c p lo hi) := by
  intro b m rest w
  have final : ∀ (t : T) (r : List I) lo hi n (w : σ) (hn : 1 ≤ n)
      (y : Res (ParseResult I T E × σ)),
      (lo = 0 ∧ hi = some 0 → y = .ok (.data ⟨m, r ++ rest⟩ t, w)) →
      (¬ (lo = 0 ∧ hi = some 0) → m = .default → rest.length < n →
        ∃ n', y = .ok (.incomplete n', w) ∧ n ≤ n' + rest.length) →
      ExtR m rest (.ok (Rep.final t ⟨.default, r⟩ lo hi n, w)) y := by
    intro t r lo hi n w hn y h1 h2
    unfold Rep.final
    by_cases h : lo = 0 ∧ hi = some 0
    · rw [if_pos ⟨h.1, .inl h.2⟩]; exact ⟨rfl, h1 h⟩
    · rw [if_neg (by rintro ⟨e, e' | e'⟩; exact h ⟨e, e'⟩; cases e')]
      exact ⟨hn, h2 h⟩
  -- `final` on both sides, with the same demand of one item
  have final1 : ∀ (t : T) (r : List I) lo hi (w : σ),
      ExtR (E := E) m rest (.ok (Rep.final t ⟨.default, r⟩ lo hi 1, w))
        (.ok (Rep.final t ⟨m, r ++ rest⟩ lo hi 1, w)) := by
    intro t r lo hi w
    apply final _ _ _ _ _ _ (Nat.le_refl 1)
    · intro h; simp [Rep.final, h.1, h.2]
    · intro h hm hl
      refine ⟨1, ?_, by omega⟩
      subst hm
      unfold Rep.final
      rw [if_neg (by rintro ⟨e, e' | e'⟩; exact h ⟨e, e'⟩; cases e')]
  unfold Rep.core
  cases c.start with
  | inr t => exact final1 t b lo hi w
  | inl acc =>
    refine loop_sim (R := fun s1 w1 s2 w2 => w1 = w2 ∧ s1.2.1.mode = .default ∧
        s2 = (s1.1, ⟨m, s1.2.1.buf ++ rest⟩, s1.2.2))
      (Q := ExtR m rest) rfl ?_ ⟨rfl, rfl, rfl⟩
    rintro ⟨acc, ⟨m', r⟩, lo, hi⟩ w _ _ ⟨rfl, hm', rfl⟩
    dsimp only at hm'; subst hm'
    by_cases h0 : hi = some 0
    · right
      rw [loop_apply, loop_apply]
      simp only [Rep.step, h0, if_true, Res.bind_ok]
      exact final1 _ _ _ _ _
    · have := hp r m rest w
      match hr : p ⟨.default, r⟩ w, this with
      | .ok (.data ⟨m', k⟩ v, w1), this =>
        obtain ⟨hm', hy⟩ := this
        dsimp only at hm' hy; subst hm'
        cases hf : c.feed acc v with
        | inl acc' =>
          left
          refine ⟨_, w1, _, w1, by simp [Rep.step, h0, hr, hf]; rfl,
            by simp [Rep.step, h0, hy, hf], rfl, rfl, rfl⟩
        | inr t =>
          right
          rw [loop_apply, loop_apply]
          simp only [Rep.step, h0, if_false, hr, hy, hf, Res.bind_ok]
          exact final1 _ _ _ _ _
      | .ok (.error b e, w1), hy =>
        right
        have hy : p ⟨m, r ++ rest⟩ w = _ := hy
        rw [loop_apply, loop_apply]
        simp only [Rep.step, h0, if_false, hr, hy, Res.bind_ok]
        by_cases hl : lo = 0
        · simp only [hl, if_true]; exact ⟨rfl, rfl⟩
        · simp only [hl, if_false]; exact rfl
      | .ok (.incomplete n, w1), hy =>
        right
        rw [loop_apply, loop_apply]
        simp only [Rep.step, h0, if_false, hr, Res.bind_ok]
        apply final _ _ _ _ _ _ hy.1
        · intro h; exact absurd h.2 h0
        · intro _ hm hl
          obtain ⟨n', hy', hn'⟩ := hy.2 hm hl
          refine ⟨n', ?_, hn'⟩
          subst hm
          simp [hy', Rep.final, h0]
      | .panic, hy =>
        right
        have hy : p ⟨m, r ++ rest⟩ w = _ := hy
        rw [loop_apply, loop_apply]
        simp only [Rep.step, h0, if_false, hr, hy, Res.bind_panic]
        exact rfl
      | .ub, hy =>
        right
        have hy : p ⟨m, r ++ rest⟩ w = _ := hy
        rw [loop_apply, loop_apply]
        simp only [Rep.step, h0, if_false, hr, hy, Res.bind_ub]
        exact rfl
      | .div, hy =>
        right
        have hy : p ⟨m, r ++ rest⟩ w = _ := hy
        rw [loop_apply, loop_apply]
        simp only [Rep.step, h0, if_false, hr, hy, Res.bind_div]
        exact rfl

theorem ext_skip {p : Parser σ I U E} (hp : Ext p) (z : Bool) (lo hi : Nat) :
    Ext (fun i w => loop (Rep.skipStep z p) (i, lo, hi) w) := by
  intro b m rest w
  refine loop_sim (R := fun s1 w1 s2 w2 => w1 = w2 ∧ s1.1.mode = .default ∧
      s2 = (⟨m, s1.1.buf ++ rest⟩, s1.2))
    (Q := ExtR m rest) rfl ?_ ⟨rfl, rfl, rfl⟩
  rintro ⟨⟨m', r⟩, lo, hi⟩ w _ _ ⟨rfl, hm', rfl⟩
  dsimp only at hm'; subst hm'
  by_cases h0 : hi = 0
  · right
    rw [loop_apply, loop_apply]
    simp only [Rep.skipStep, h0, if_true, Res.bind_ok]
    exact ⟨rfl, rfl⟩
  · have := hp r m rest w
    match hr : p ⟨.default, r⟩ w, this with
    | .ok (.data ⟨m', k⟩ v, w1), this =>
      obtain ⟨hm', hy⟩ := this
      dsimp only at hm' hy; subst hm'
      left
      exact ⟨_, w1, _, w1, by simp [Rep.skipStep, h0, hr]; rfl,
        by simp [Rep.skipStep, h0, hy], rfl, rfl, rfl⟩
    | .ok (.error b e, w1), hy =>
      right
      have hy : p ⟨m, r ++ rest⟩ w = _ := hy
      rw [loop_apply, loop_apply]
      simp only [Rep.skipStep, h0, if_false, hr, hy, Res.bind_ok]
      by_cases hl : lo = 0
      · simp only [hl, if_true]; exact ⟨rfl, rfl⟩
      · simp only [hl, if_false]; exact rfl
    | .ok (.incomplete n, w1), hy =>
      right
      rw [loop_apply, loop_apply]
      have hn := hy.1
      have hn0 : n ≠ 0 := by omega
      simp only [Rep.skipStep, h0, if_false, hr, Res.bind_ok, reduceCtorEq, and_false, false_or,
        hn0]
      refine ⟨hn, fun hm hl => ?_⟩
      obtain ⟨n', hy', hn'⟩ := hy.2 hm hl
      have hn1 : n' ≠ 0 := by omega
      subst hm
      exact ⟨n', by simp [hy', hn1], hn'⟩
    | .panic, hy =>
      right
      have hy : p ⟨m, r ++ rest⟩ w = _ := hy
      rw [loop_apply, loop_apply]
      simp only [Rep.skipStep, h0, if_false, hr, hy, Res.bind_panic]
      exact rfl
    | .ub, hy =>
      right
      have hy : p ⟨m, r ++ rest⟩ w = _ := hy
      rw [loop_apply, loop_apply]
      simp only [Rep.skipStep, h0, if_false, hr, hy, Res.bind_ub]
      exact rfl
    | .div, hy =>
      right
      have hy : p ⟨m, r ++ rest⟩ w = _ := hy
      rw [loop_apply, loop_apply]
      simp only [Rep.skipStep, h0, if_false, hr, hy, Res.bind_div]
      exact rfl

theorem ext_panic : Ext (fun _ _ => .panic : Parser σ I T E) := fun _ _ _ _ => rfl

theorem ext_many {p : Parser σ I U E} (hp : Ext p) (r) (c : Collect U T) :
    Ext (Bounded.many r c p) := by
  rcases Rep.many_shapes r c p with ⟨lo, hi, h⟩ | ⟨hn, h⟩
  · rw [h]; exact ext_core hp c lo hi
  · rw [h]; exact ext_panic

theorem ext_skipMany {p : Parser σ I U E} (hp : Ext p) (r) : Ext (Bounded.skipMany r p) := by
  rcases Rep.skipMany_shapes r p with ⟨lo, hi, h⟩ | ⟨z, lo, hi, h⟩ | ⟨hn, h⟩
  · rw [h]; exact ext_core hp _ lo hi
  · rw [h]; exact ext_skip hp z lo hi
  · rw [h]; exact ext_panic

theorem ext_manyTill {p : Parser σ I U E} {e : Parser σ I V N} (hp : Ext p) (he : Ext e)
    (hs : Sync p e) (c : Collect U T) : Ext (Comb.manyTill c p e) := by
  intro b m rest w
  unfold Comb.manyTill
  rw [Till.manyTill_eq (by exact True.intro)]
  unfold Till.core
  cases c.start with
  | inr t =>
    refine ⟨Nat.le_refl _, fun _ h => ⟨1, rfl, by omega⟩⟩
  | inl acc =>
    refine loop_sim (R := fun s1 w1 s2 w2 => w1 = w2 ∧ s1.2.1.mode = .default ∧
        s2 = (s1.1, ⟨m, s1.2.1.buf ++ rest⟩, s1.2.2) ∧ s1.2.2 = (0, none))
      (Q := ExtR m rest) rfl ?_ ⟨rfl, rfl, rfl, rfl⟩
    rintro ⟨acc, ⟨m', r⟩, lo, hi⟩ w _ _ ⟨rfl, hm', rfl, hlh⟩
    dsimp only at hm'; subst hm'
    cases hlh
    -- what follows if `end_` does not match
    have next : ∀ w0, Till.test e 1 ⟨.default, r⟩ w = .ok (none, w0) →
        Till.test e 1 ⟨m, r ++ rest⟩ w = .ok (none, w0) →
        (∃ s1' w1' s2' w2',
          Till.step c p e (Till.last .full) (Till.good .full) (acc, ⟨.default, r⟩, 0, none) w
            = .ok (.inl s1', w1') ∧
          Till.step c p e (Till.last .full) (Till.good .full) (acc, ⟨m, r ++ rest⟩, 0, none) w
            = .ok (.inl s2', w2') ∧
          w1' = w2' ∧ s1'.2.1.mode = .default ∧
          s2' = (s1'.1, ⟨m, s1'.2.1.buf ++ rest⟩, s1'.2.2) ∧ s1'.2.2 = (0, none)) ∨
        ExtR m rest
          (loop (Till.step c p e (Till.last .full) (Till.good .full)) (acc, ⟨.default, r⟩, 0, none) w)
          (loop (Till.step c p e (Till.last .full) (Till.good .full))
            (acc, ⟨m, r ++ rest⟩, 0, none) w) := by
      intro w0 h1 h2
      have hp' := hp r m rest w0
      match hr : p ⟨.default, r⟩ w0, hp' with
      | .ok (.data ⟨m', k⟩ v, w1), this =>
        obtain ⟨hm', hy⟩ := this
        dsimp only at hm' hy; subst hm'
        cases hf : c.feed acc v with
        | inl acc' =>
          left
          refine ⟨_, w1, _, w1, by simp [Till.step, Till.triesAt, h1, hr, hf]; rfl,
            by simp [Till.step, Till.triesAt, h2, hy, hf], rfl, rfl, rfl, rfl⟩
        | inr t =>
          right
          rw [loop_apply, loop_apply]
          simp only [Till.step, Till.triesAt, reduceCtorEq, if_false, if_true, h1, h2, hr, hy, hf,
            Res.bind_ok]
          exact ⟨Nat.le_refl _, fun _ h => ⟨1, rfl, by omega⟩⟩
      | .ok (.error b e, w1), hy =>
        right
        have hy : p ⟨m, r ++ rest⟩ w0 = _ := hy
        rw [loop_apply, loop_apply]
        simp only [Till.step, Till.triesAt, reduceCtorEq, if_false, if_true, h1, h2, hr, hy,
          Res.bind_ok]
        exact rfl
      | .ok (.incomplete n, w1), hy =>
        right
        rw [loop_apply, loop_apply]
        simp only [Till.step, Till.triesAt, reduceCtorEq, if_false, if_true, h1, h2, hr,
          Res.bind_ok]
        refine ⟨hy.1, fun hm hl => ?_⟩
        obtain ⟨n', hy', hn'⟩ := hy.2 hm hl
        exact ⟨n', by simp [hy'], hn'⟩
      | .panic, hy =>
        right
        have hy : p ⟨m, r ++ rest⟩ w0 = _ := hy
        rw [loop_apply, loop_apply]
        simp only [Till.step, Till.triesAt, reduceCtorEq, if_false, if_true, h1, h2, hr, hy,
          Res.bind_ok, Res.bind_panic]
        exact rfl
      | .ub, hy =>
        right
        have hy : p ⟨m, r ++ rest⟩ w0 = _ := hy
        rw [loop_apply, loop_apply]
        simp only [Till.step, Till.triesAt, reduceCtorEq, if_false, if_true, h1, h2, hr, hy,
          Res.bind_ok, Res.bind_ub]
        exact rfl
      | .div, hy =>
        right
        have hy : p ⟨m, r ++ rest⟩ w0 = _ := hy
        rw [loop_apply, loop_apply]
        simp only [Till.step, Till.triesAt, reduceCtorEq, if_false, if_true, h1, h2, hr, hy,
          Res.bind_ok, Res.bind_div]
        exact rfl
    have he' := he r m rest w
    match hr : e ⟨.default, r⟩ w, he' with
    | .ok (.data ⟨m', k⟩ v, w1), this =>
      obtain ⟨hm', hy⟩ := this
      dsimp only at hm' hy; subst hm'
      right
      rw [loop_apply, loop_apply]
      simp only [Till.step, Till.triesAt, reduceCtorEq, if_false, if_true, Till.test_one, hr, hy,
        Res.bind_ok]
      exact ⟨rfl, rfl⟩
    | .ok (.error b _, w1), hy =>
      have hy : e ⟨m, r ++ rest⟩ w = _ := hy
      exact next w1 (by rw [Till.test_one, hr]; rfl) (by rw [Till.test_one, hy]; rfl)
    | .ok (.incomplete n, w1), hy =>
      right
      obtain ⟨k, w2, hk, hkn⟩ := hs _ _ _ _ hr
      have hp' := hp r m rest w1
      rw [hk] at hp'
      rw [loop_apply, loop_apply]
      simp only [Till.step, Till.triesAt, reduceCtorEq, if_false, if_true, Till.test_one, hr, hk,
        Res.bind_ok]
      refine ⟨hp'.1, fun hm hl => ?_⟩
      obtain ⟨n', hy', hn'⟩ := hy.2 hm (by omega)
      obtain ⟨k', hk', hkn'⟩ := hp'.2 hm hl
      exact ⟨k', by simp [hy', hk'], hkn'⟩
    | .panic, hy =>
      right
      have hy : e ⟨m, r ++ rest⟩ w = _ := hy
      rw [loop_apply, loop_apply]
      simp only [Till.step, Till.triesAt, reduceCtorEq, if_false, if_true, Till.test_one, hr, hy,
        Res.bind_panic]
      exact rfl
    | .ub, hy =>
      right
      have hy : e ⟨m, r ++ rest⟩ w = _ := hy
      rw [loop_apply, loop_apply]
      simp only [Till.step, Till.triesAt, reduceCtorEq, if_false, if_true, Till.test_one, hr, hy,
        Res.bind_ub]
      exact rfl
    | .div, hy =>
      right
      have hy : e ⟨m, r ++ rest⟩ w = _ := hy
      rw [loop_apply, loop_apply]
      simp only [Till.step, Till.triesAt, reduceCtorEq, if_false, if_true, Till.test_one, hr, hy,
        Res.bind_div]
      exact rfl

theorem ext_sepThen {p : Parser σ I U E} {sep : Parser σ I V N} (conv : N → E) (hp : Ext p)
    (hs : Ext sep) : Ext (sepThen conv p sep) := by
  have : sepThen conv p sep = Parser.bind conv sep (fun _ => p) := by
    funext i w
    unfold sepThen Parser.bind
    rw [M.bind_apply]
    cases hr : sep i w with
    | ok x =>
      obtain ⟨x, w1⟩ := x
      cases x <;> simp
    | _ => rfl
  rw [this]
  exact ext_bindP hs (fun _ => hp)

theorem ext_flag {m : Mode} {rest : List I} {f : Bool} {x y : Res (ParseResult I U E × σ)}
    (h : ExtR m rest x y) : ExtR m rest (Sep.flag f x) (Sep.flag f y) := by
  match x, h with
  | .ok (.data k v, w1), h => obtain ⟨hm, rfl⟩ := h; exact ⟨hm, rfl⟩
  | .ok (.error b e, w1), h => cases h; exact rfl
  | .ok (.incomplete n, w1), h =>
    refine ⟨h.1, fun hm hl => ?_⟩
    obtain ⟨n', rfl, hn⟩ := h.2 hm hl
    exact ⟨n', rfl, hn⟩
  | .panic, h => cases h; exact rfl
  | .ub, h => cases h; exact rfl
  | .div, h => cases h; exact rfl

theorem ext_sepParser {p : Parser σ I U E} {sep : Parser σ I V N} (conv : N → E) (hp : Ext p)
    (hs : Ext sep) : Ext (Comb.sepParser conv p sep) := by
  rintro b m rest ⟨w, f⟩
  rw [Sep.sepParser_eq, Sep.sepParser_eq]
  apply ext_flag
  cases f
  · exact hp b m rest w
  · exact ext_sepThen conv hp hs b m rest w

theorem ext_newLocal {m : Mode} {rest : List I} {x y : M (σ × Bool) (ParseResult I U E)}
    {t : Bool} {w : σ} (h : ExtR m rest (x (w, t)) (y (w, t))) :
    ExtR m rest (Comb.newLocal t x w) (Comb.newLocal t y w) := by
  rw [Sep.newLocal_eq, Sep.newLocal_eq]
  generalize x (w, t) = x at h
  generalize y (w, t) = y at h
  match x, h with
  | .ok (.data k v, w1), h => obtain ⟨hm, rfl⟩ := h; exact ⟨hm, rfl⟩
  | .ok (.error b e, w1), h => cases h; exact rfl
  | .ok (.incomplete n, w1), h =>
    refine ⟨h.1, fun hm hl => ?_⟩
    obtain ⟨n', rfl, hn⟩ := h.2 hm hl
    exact ⟨n', rfl, hn⟩
  | .panic, h => cases h; exact rfl
  | .ub, h => cases h; exact rfl
  | .div, h => cases h; exact rfl

theorem ext_matchedBy {a : Allow} {p : Parser σ I T E} (hp : Ext p) (hg : Good a p) :
    Ext (Comb.matchedBy p) := by
  intro b m rest w
  unfold Comb.matchedBy
  rw [M.bind_apply, M.bind_apply]
  have h1 := hp b m rest w
  have h2 := hg ⟨.default, b⟩ w
  match hr : p ⟨.default, b⟩ w, h1, h2 with
  | .ok (.data ⟨m', k⟩ v, w1), h1, h2 =>
    obtain ⟨hm, hy⟩ := h1
    dsimp only at hm hy; subst hm
    rw [hy]
    dsimp only [Res.bind_ok]
    have hl : k.length ≤ b.length := h2.2.length_le
    have e : (b ++ rest).length - (k ++ rest).length = b.length - k.length := by
      simp only [List.length_append]; omega
    rw [usub_ok hl, M.bind_ok (M.lift_ok _ _), M.bind_ok (sliceTo_ok (by omega) _),
      usub_ok (by simp only [List.length_append]; omega), M.bind_ok (M.lift_ok _ _),
      M.bind_ok (sliceTo_ok (by omega) _), e, List.take_append_of_le_length (by omega)]
    exact ⟨rfl, rfl⟩
  | .ok (.error b e, w1), h1, h2 =>
    have hy : p ⟨m, _ ++ rest⟩ w = _ := h1
    rw [hy]; exact rfl
  | .ok (.incomplete n, w1), h1, h2 =>
    refine ⟨h1.1, fun hm hl => ?_⟩
    obtain ⟨n', hy, hn⟩ := h1.2 hm hl
    exact ⟨n', by rw [hy]; rfl, hn⟩
  | .panic, h1, h2 => have hy : p ⟨m, _ ++ rest⟩ w = _ := h1; rw [hy]; exact rfl
  | .ub, h1, h2 => have hy : p ⟨m, _ ++ rest⟩ w = _ := h1; rw [hy]; exact rfl
  | .div, h1, h2 => have hy : p ⟨m, _ ++ rest⟩ w = _ := h1; rw [hy]; exact rfl

theorem ext_map {p : Parser σ I T E} (hp : Ext p) (f : T → U) : Ext (Parser.map p f) := by
  intro b m rest w
  refine ext_bind (k1 := fun r => r.map (fun t => pure (f t)))
    (k2 := fun r => r.map (fun t => pure (f t))) (hp b m rest w) ?_ ?_ ?_ ?_
  · intro r t w; exact ⟨rfl, rfl⟩
  · intro b e w; exact rfl
  · intro n w; rfl
  · intro _ n w; rfl

theorem ext_ret (t : T) : Ext (Parser.ret (σ := σ) (I := I) (E := E) t) :=
  fun _ _ _ _ => ⟨rfl, rfl⟩

theorem ext_option {p : Parser σ I T E} (hp : Ext p) (t : T) : Ext (Comb.option p t) := by
  intro b m rest w
  unfold Comb.option
  rw [M.bind_apply, M.bind_apply]
  let k (i : Input I) (r : ParseResult I T E) : M σ (ParseResult I T E) := match r with
    | .data b d => pure (b.ret d)
    | .error _ _ => pure (i.ret t)
    | .incomplete n => if i.isLastSlice then pure (i.ret t) else pure (i.incomplete n)
  refine ext_bind (k1 := k ⟨.default, b⟩) (k2 := k ⟨m, b ++ rest⟩) (hp b m rest w) ?_ ?_ ?_ ?_
  · intro r t w; exact ⟨rfl, rfl⟩
  · intro b e w; exact ⟨rfl, rfl⟩
  · intro n w; rfl
  · rintro rfl n w; rfl

theorem ext_or {p q : Parser σ I T E} (hp : Ext p) (hq : Ext q) : Ext (Comb.or p q) := by
  intro b m rest w
  unfold Comb.or
  rw [M.bind_apply, M.bind_apply]
  let k (i : Input I) (r : ParseResult I T E) : M σ (ParseResult I T E) := match r with
    | .data b d => pure (b.ret d)
    | .error _ _ => q i
    | .incomplete n => if i.isLastSlice then q i else pure (i.incomplete n)
  refine ext_bind (k1 := k ⟨.default, b⟩) (k2 := k ⟨m, b ++ rest⟩) (hp b m rest w) ?_ ?_ ?_ ?_
  · intro r t w; exact ⟨rfl, rfl⟩
  · intro _ e w; exact hq b m rest w
  · intro n w; rfl
  · rintro rfl n w; rfl

theorem ext_lookAhead {p : Parser σ I T E} (hp : Ext p) : Ext (Comb.lookAhead p) := by
  intro b m rest w
  unfold Comb.lookAhead
  rw [M.bind_apply, M.bind_apply]
  let k (i : Input I) (r : ParseResult I T E) : M σ (ParseResult I T E) := match r with
    | .data _ t => pure (i.ret t)
    | .error b t => pure ((i.replace b).err t)
    | .incomplete n => pure (i.incomplete n)
  refine ext_bind (k1 := k ⟨.default, b⟩) (k2 := k ⟨m, b ++ rest⟩) (hp b m rest w) ?_ ?_ ?_ ?_
  · intro r t w; exact ⟨rfl, rfl⟩
  · intro b e w; exact rfl
  · intro n w; rfl
  · intro _ n w; rfl

theorem ext_decimal (v) (N : Ascii.Num T) : Ext (Ascii.decimal (σ := σ) v N) := by
  refine ext_bindP (f := fun buf i => do
      let x ← M.lift (Ascii.toDecimal N buf)
      pure (i.ret x)) (ext_takeWhile1 v _) (fun t b m rest w => ?_)
  dsimp only
  rw [M.bind_apply, M.bind_apply]
  exact ext_effect (k1 := fun x => pure (Input.ret ⟨.default, b⟩ x))
    (k2 := fun x => pure (Input.ret ⟨m, b ++ rest⟩ x)) (fun x w => ⟨rfl, rfl⟩)

theorem ext_signed (v) (N : Ascii.Num T) {p : Parser σ UInt8 T (Error UInt8)} (hp : Ext p) :
    Ext (Ascii.signed v N p) := by
  refine ext_bindP (f := fun sign i => do
    let q ← p i
    q.map (fun num => M.lift (N.mul sign num)))
    (ext_option (ext_map (ext_satisfy v _) _) _) (fun sign b m rest w => ?_)
  dsimp only
  rw [M.bind_apply, M.bind_apply]
  refine ext_bind (k1 := fun q => q.map (fun num => M.lift (N.mul sign num)))
    (k2 := fun q => q.map (fun num => M.lift (N.mul sign num))) (hp b m rest w) ?_ ?_ ?_ ?_
  · intro r t w
    exact ext_effect (k1 := fun u => pure (.data ⟨.default, r⟩ u))
      (k2 := fun u => pure (.data ⟨m, r ++ rest⟩ u)) (fun x w => ⟨rfl, rfl⟩)
  · intro b e w; exact rfl
  · intro n w; rfl
  · intro _ n w; rfl

/-- Every parser assembled from the chunk-independent part of the library. -/
theorem ext {σ I T E : Type} {a : Allow} {p : Parser σ I T E} (ha : a.chunkDependent = false)
    (h : Built a p) : Ext p := by
  induction h with
  | ret t => exact ext_ret t
  | err e => intro b m rest w; exact rfl
  | fromResult r =>
    intro b m rest w
    cases r with
    | ok t => exact ⟨rfl, rfl⟩
    | error e => exact rfl
  | incomplete n h hk =>
    intro b m rest w
    exact ⟨h, fun _ _ => ⟨n, rfl, by omega⟩⟩
  | bind _ _ ihp ihf => exact ext_bindP ihp ihf
  | andThen _ _ ihp ihq => exact ext_bindP (f := fun _ => _) ihp (fun _ => ihq)
  | map f _ ih => exact ext_map ih f
  | mapErr f _ ih =>
    intro b m rest w
    refine ext_bind (k1 := fun r => r.mapErr (fun t => pure (f t)))
      (k2 := fun r => r.mapErr (fun t => pure (f t))) (ih b m rest w) ?_ ?_ ?_ ?_
    · intro r t w; exact ⟨rfl, rfl⟩
    · intro b e w; exact rfl
    · intro n w; rfl
    · intro _ n w; rfl
  | inspect f hf _ ih =>
    intro b m rest w
    refine ext_bind (k1 := fun r => r.inspect f) (k2 := fun r => r.inspect f) (ih b m rest w)
      ?_ ?_ ?_ ?_
    · intro r t w
      exact ext_effect (k1 := fun _ => pure (.data ⟨.default, r⟩ t))
        (k2 := fun _ => pure (.data ⟨m, r ++ rest⟩ t)) (fun x w => ⟨rfl, rfl⟩)
    · intro b e w; exact rfl
    · intro n w; rfl
    · intro _ n w; rfl
  | effect hg _ ih =>
    intro b m rest w
    exact ext_effect (k1 := fun x => _) (k2 := fun x => _) (fun x w => ih x b m rest w)
  | any => exact ext_any
  | satisfy v f => exact ext_satisfy v f
  | satisfyWith v f p => exact ext_satisfyWith v f p
  | token v t => exact ext_token v t
  | notToken v t => exact ext_notToken v t
  | peek h => rw [ha] at h; cases h
  | peekNext => exact ext_peekNext
  | take n _ => exact ext_take n
  | takeWhile f => exact ext_takeWhile f
  | takeWhile1 v f => exact ext_takeWhile1 v f
  | takeTill f => exact ext_takeTill f
  | scan s f => exact ext_scan s f
  | runScanner s f => exact ext_runScanner s f
  | takeRemainder h => rw [ha] at h; cases h
  | string v s _ => exact ext_string v s
  | eof v h => rw [ha] at h; cases h
  | mapM f hf _ ih =>
    intro b m rest w
    refine ext_bind (k1 := fun r => r.map f) (k2 := fun r => r.map f) (ih b m rest w) ?_ ?_ ?_ ?_
    · intro r t w
      exact ext_effect (k1 := fun u => pure (.data ⟨.default, r⟩ u))
        (k2 := fun u => pure (.data ⟨m, r ++ rest⟩ u)) (fun x w => ⟨rfl, rfl⟩)
    · intro b e w; exact rfl
    · intro n w; rfl
    · intro _ n w; rfl
  | mapErrM f hf _ ih =>
    intro b m rest w
    refine ext_bind (k1 := fun r => r.mapErr f) (k2 := fun r => r.mapErr f) (ih b m rest w) ?_ ?_ ?_ ?_
    · intro r t w; exact ⟨rfl, rfl⟩
    · intro b e w
      exact ext_effect (k1 := fun u => pure (.error b u))
        (k2 := fun u => pure (.error (b ++ rest) u)) (fun x w => rfl)
    · intro n w; rfl
    · intro _ n w; rfl
  | satisfyM v f hf => exact ext_settles (Closures.settles_satisfy v f)
  | satisfyWithM v f p hf => exact ext_settles (Closures.settles_satisfyWith v f p)
  | tokenM eq v t hf => exact ext_settles (Closures.settles_token eq v t)
  | notTokenM ne v t hf => exact ext_settles (Closures.settles_notToken ne v t)
  | takeWhileM f hf => exact ext_settles (Closures.settles_takeWhile f)
  | takeWhile1M v f hf => exact ext_settles (Closures.settles_takeWhile1 v f)
  | takeTillM f hf => exact ext_settles (Closures.settles_takeTill f)
  | scanM s f hf => exact ext_settles (Closures.settles_scan s f)
  | runScannerM s f hf => exact ext_settles (Closures.settles_runScanner s f)
  | stringM ne v s hk hf => exact ext_settles (Closures.settles_string ne v s)
  | count n c _ ih => exact ext_many ih (.exactly n) c
  | option t _ ih => exact ext_option ih t
  | or _ _ ihp ihq => exact ext_or ihp ihq
  | many c _ ih => exact ext_many ih .full c
  | many1 c _ ih => exact ext_many ih (.from_ 1) c
  | sepBy conv c _ _ ihp ihs =>
    intro b m rest w
    exact ext_newLocal (ext_many (ext_sepParser conv ihp ihs) .full c b m rest _)
  | sepBy1 conv c _ _ ihp ihs =>
    intro b m rest w
    exact ext_newLocal (ext_many (ext_sepParser conv ihp ihs) (.from_ 1) c b m rest _)
  | manyTill c h _ _ ihp ihe => exact ext_manyTill ihp ihe (h ha) c
  | skipMany _ ih => exact ext_skipMany ih .full
  | skipMany1 _ ih => exact ext_skipMany ih (.from_ 1)
  | matchedBy h ih => exact ext_matchedBy ih (good h)
  | lookAhead _ ih => exact ext_lookAhead ih
  | boundedMany r c hr _ ih => exact ext_many ih r c
  | boundedSkipMany r hr _ ih => exact ext_skipMany ih r
  | boundedManyTill r c h hr _ _ ihp ihe => rw [ha] at h; cases h
  | skipWhitespace => exact ext_map (ext_takeWhile _) _
  | digit v => exact ext_satisfy v _
  | decimal v N hN => exact ext_decimal v N
  | signed v N hN _ ih => exact ext_signed v N ih
  | endless => intro b m rest w; exact rfl
  | unfolds q hq _ ih =>
    intro b m rest w
    have h := ih [(⟨.default, b⟩, w), (⟨m, b ++ rest⟩, w)] b m rest w
    rwa [hq _ (⟨.default, b⟩, w) (by simp), hq _ (⟨m, b ++ rest⟩, w) (by simp)] at h

end Built

end Chomp
