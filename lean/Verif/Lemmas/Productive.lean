import Verif.Props.Terminate

/-
The check of `Spec.Productive` is sound.
-/

namespace Chomp

open Spec Props

namespace Productive

/-- No undefined behaviour, at least `c` items consumed, at least one asked for. -/
def NiceR (c : Bool) (i : Input I) : Res (ParseResult I T E × σ) → Prop
  | .ok (.data j _, _) => j.buf.length + c.toNat ≤ i.buf.length
  | .ok (.error _ _, _) => True
  | .ok (.incomplete n, _) => 1 ≤ n
  | .panic => True
  | .ub => False
  | .div => True

def Nice (c : Bool) (p : Parser σ I T E) : Prop := ∀ i w, NiceR c i (p i w)

theorem NiceR.weaken {d c : Bool} {i : Input I} {x : Res (ParseResult I T E × σ)} (h : NiceR d i x)
    (hc : c = true → d = true) : NiceR c i x := by
  match x, h with
  | .ok (.data k _, _), h =>
    have h : k.buf.length + d.toNat ≤ i.buf.length := h
    show k.buf.length + c.toNat ≤ _
    cases c
    · simp; omega
    · rw [hc rfl] at h; exact h
  | .ok (.error b _, _), h => exact h
  | .ok (.incomplete _, _), h => exact h
  | .panic, h => exact h
  | .div, h => exact h

theorem nice_bind {a c : Bool} {i : Input I} {x : Res (ParseResult I T E × σ)} (h : NiceR a i x)
    {k : ParseResult I T E → M σ (ParseResult I U V)}
    (hd : ∀ j t w, j.buf.length + a.toNat ≤ i.buf.length → NiceR c i (k (.data j t) w))
    (he : ∀ b e w, NiceR c i (k (.error b e) w))
    (hi : ∀ n w, 1 ≤ n → NiceR c i (k (.incomplete n) w)) :
    NiceR c i (x >>= fun q => k q.1 q.2) := by
  match x, h with
  | .ok (.data j t, w), h => exact hd j t w h
  | .ok (.error b e, w), h => exact he b e w
  | .ok (.incomplete n, w), h => exact hi n w h
  | .panic, h => exact h
  | .div, h => exact True.intro

theorem nice_effect {c : Bool} {i : Input I} {x : Res (A × σ)} (h : x ≠ .ub)
    {k : A → M σ (ParseResult I U V)} (hk : ∀ x w, NiceR c i (k x w)) :
    NiceR c i (x >>= fun q => k q.1 q.2) := by
  match x, h with
  | .ok (x, w), h => exact hk x w
  | .panic, h => exact True.intro
  | .div, h => exact True.intro

theorem ne_div_bind {x : Res α} {k : α → Res β} (h : x ≠ .div) (hk : ∀ y, x = .ok y → k y ≠ .div) :
    x >>= k ≠ .div := by
  cases x with
  | ok y => exact hk y rfl
  | div => exact absurd rfl h
  | _ => simp

theorem dropWhile_le (f : I → Bool) (b : List I) : (b.dropWhile f).length ≤ b.length :=
  (Built.dropWhile_suffix f b).length_le

theorem settles {c : Bool} {K : Nat} {Q : Abrupt → Prop} {p : Parser σ I T E}
    (h : Closures.Settles c K Q p) (hd : ¬ Q .div) (hu : ¬ Q .ub) : Nice c p ∧ Returns p := by
  have key : ∀ m b w, NiceR c ⟨m, b⟩ (p ⟨m, b⟩ w) ∧ p ⟨m, b⟩ w ≠ .div := by
    intro m b w
    rcases h b w with ⟨r, t, w', _, hr, h⟩ | ⟨r, e, w', hr, h⟩ | ⟨x, hx, h⟩ | ⟨n, w', hn, _, h1, h2, _⟩
    · have := h m []; simp only [List.append_nil] at this; rw [this]; exact ⟨hr, nofun⟩
    · have := h m []; simp only [List.append_nil] at this; rw [this]; exact ⟨True.intro, nofun⟩
    · have := h m []; simp only [List.append_nil] at this; rw [this]
      cases x with
      | panic => exact ⟨True.intro, nofun⟩
      | ub => exact absurd hx hu
      | div => exact absurd hx hd
    · cases m with
      | default => rw [h1]; exact ⟨hn, nofun⟩
      | endOfInput =>
        rcases h2 with h2 | ⟨t, hc, h2⟩ <;> rw [h2]
        · exact ⟨hn, nofun⟩
        · exact ⟨by show 0 + _ ≤ _; dsimp only; omega, nofun⟩
  exact ⟨fun ⟨m, b⟩ w => (key m b w).1, fun ⟨m, b⟩ w => (key m b w).2⟩

/-! #### primitives -/

theorem one {p : Parser σ I T E} (h : ∀ i w, ∃ r w', p i w = .ok (r, w')) : Returns p := by
  intro i w
  obtain ⟨r, w', h⟩ := h i w
  rw [h]; simp

theorem nice_take (n) : Nice (decide (0 < n)) (Parsers.take (σ := σ) (I := I) n) := by
  rintro ⟨m, b⟩ w
  rw [Parsers.take_eq]
  by_cases h : n ≤ b.length
  · simp only [h, if_true]
    show (b.drop n).length + _ ≤ b.length
    rw [List.length_drop]
    by_cases h0 : 0 < n <;> simp [h0] <;> omega
  · simp only [h, if_false]
    show 1 ≤ n - b.length
    omega

theorem nice_takeWhile (f : I → Bool) : Nice false (Parsers.takeWhile (σ := σ) f) := by
  rintro ⟨m, b⟩ w
  rw [Parsers.takeWhile_eq]
  split
  · exact Nat.le_refl _
  · exact dropWhile_le _ _

theorem nice_takeWhile1 (v) (f : I → Bool) : Nice true (Parsers.takeWhile1 (σ := σ) v f) := by
  rintro ⟨m, b⟩ w
  rw [Parsers.takeWhile1_eq]
  cases b with
  | nil => exact Nat.le_refl _
  | cons c r =>
    dsimp only
    split
    · exact True.intro
    · rename_i hc
      split
      · exact Nat.le_refl _
      · show ((c :: r).dropWhile f).length + 1 ≤ r.length + 1
        have hc : f c = true := by simpa using hc
        rw [List.dropWhile_cons, if_pos hc]
        have := dropWhile_le f r
        omega

theorem nice_takeTill (f : I → Bool) : Nice false (Parsers.takeTill (σ := σ) f) := by
  rintro ⟨m, b⟩ w
  rw [Parsers.takeTill_eq]
  split
  · exact dropWhile_le _ _
  · exact Nat.le_refl _

theorem nice_scan (s : S) (f : S → I → Option S) : Nice false (Parsers.scan (σ := σ) s f) := by
  rintro ⟨m, b⟩ w
  rcases Parsers.scan_cases f b s with ⟨s', h⟩ | ⟨x, c, y, s', rfl, hx, hc⟩
  · rw [Parsers.scan_none w h]; exact Nat.le_refl _
  · rw [Parsers.scan_stop w hx hc]
    show (c :: y).length ≤ (x ++ c :: y).length
    simp

theorem nice_runScanner (s : S) (f : S → I → Option S) : Nice false (Parsers.runScanner (σ := σ) s f) := by
  rintro ⟨m, b⟩ w
  rcases Parsers.scan_cases f b s with ⟨s', h⟩ | ⟨x, c, y, s', rfl, hx, hc⟩
  · rw [Parsers.runScanner_none w h]; exact Nat.le_refl _
  · rw [Parsers.runScanner_stop w hx hc]
    show (c :: y).length ≤ (x ++ c :: y).length
    simp

theorem nice_string [DecidableEq I] (v) (s : List I) :
    Nice (!s.isEmpty) (Parsers.string (σ := σ) v s) := by
  rintro ⟨m, b⟩ w
  rcases Parsers.string_cases s b with h | ⟨r, rfl⟩ | ⟨x, t, c, s', r, rfl, rfl, hn, hl⟩
  · rw [Parsers.string_short w h]
    show 1 ≤ s.length - b.length
    omega
  · rw [Parsers.string_match w]
    show r.length + _ ≤ (s ++ r).length
    cases s <;> simp
  · rw [Parsers.string_mismatch w hn hl]
    cases v <;> exact True.intro

theorem nice_satisfy (v) (f : I → Bool) : Nice true (Parsers.satisfy (σ := σ) v f) := by
  rintro ⟨m, b⟩ w
  rw [Parsers.satisfy_eq]
  cases b with
  | nil => exact Nat.le_refl _
  | cons c r =>
    by_cases h : f c = true
    · simp only [h, if_true]; exact Nat.le_refl _
    · simp only [h]; exact True.intro

theorem satisfy_returns (v) (f : I → Bool) : Returns (Parsers.satisfy (σ := σ) v f) := by
  rintro ⟨m, b⟩ w
  rw [Parsers.satisfy_eq]
  cases b with
  | nil => simp
  | cons c r => dsimp only; split <;> simp

theorem takeWhile1_returns (v) (f : I → Bool) : Returns (Parsers.takeWhile1 (σ := σ) v f) := by
  rintro ⟨m, b⟩ w
  rw [Parsers.takeWhile1_eq]
  cases b with
  | nil => simp
  | cons c r => dsimp only; split; · simp
                split <;> simp

/-! #### combinators -/

theorem nice_bindP {a b : Bool} {p : Parser σ I T E} {conv : E → V} {f : T → Parser σ I U V}
    (hp : Nice a p) (hf : ∀ t, Nice b (f t)) : Nice (a || b) (Parser.bind conv p f) := by
  intro i w
  refine nice_bind (k := fun r => r.bind conv (fun i t => f t i)) (hp i w) ?_ ?_ ?_
  · intro j t w hj
    rw [ParseResult.bind_data]
    have := hf t j w
    match f t j w, this with
    | .ok (.data k _, _), h =>
      have h : k.buf.length + b.toNat ≤ j.buf.length := h
      show k.buf.length + (a || b).toNat ≤ _
      cases a <;> cases b <;> simp at * <;> omega
    | .ok (.error b _, _), h => exact h
    | .ok (.incomplete _, _), h => exact h
    | .panic, h => exact h
    | .div, h => exact h
  · intro b e w; exact True.intro
  · intro n w hn; exact hn

theorem returns_bindP {p : Parser σ I T E} {conv : E → V} {f : T → Parser σ I U V}
    (hp : Returns p) (hf : ∀ t, Returns (f t)) : Returns (Parser.bind conv p f) := by
  intro i w
  unfold Parser.bind
  rw [M.bind_apply]
  refine ne_div_bind (hp i w) ?_
  rintro ⟨r, w'⟩ _
  cases r with
  | data j t => dsimp only; rw [ParseResult.bind_data]; exact hf t j w'
  | error b e => exact nofun
  | incomplete n => exact nofun

theorem nice_core {a : Bool} {p : Parser σ I U E} (hp : Nice a p) (c : Collect U T) (lo : Nat)
    (hi : Option Nat) : Nice (a && decide (0 < lo)) (Rep.core c p lo hi) := by
  intro i w
  have final : ∀ (d : Bool) (t : T) (j : Input I) lo hi n (w : σ), (lo = 0 →
      j.buf.length + d.toNat ≤ i.buf.length) → 1 ≤ n →
      NiceR (E := E) d i (.ok (Rep.final t j lo hi n, w)) := by
    intro d t j lo hi n w h1 h2
    unfold Rep.final
    split
    · rename_i h; exact h1 h.1
    · exact h2
  unfold Rep.core
  cases c.start with
  | inr t =>
    refine final _ t i lo hi 1 w (fun h0 => ?_) (Nat.le_refl _)
    subst h0; simp
  | inl acc =>
    refine loop_inv (P := fun s _ => s.2.1.buf.length ≤ i.buf.length ∧
        (s.2.2.1 = lo ∨ s.2.1.buf.length + a.toNat ≤ i.buf.length))
      (Q := NiceR _ i) True.intro ?_ ⟨Nat.le_refl _, .inl rfl⟩
    rintro ⟨acc, j, l, hi⟩ w ⟨hb, hl⟩
    dsimp only at hb hl
    have key : l = 0 → j.buf.length + (a && decide (0 < lo)).toNat ≤ i.buf.length := by
      intro h0
      rcases hl with hl | hl
      · rw [h0] at hl; subst hl; simp; exact hb
      · cases a <;> simp at hl ⊢
        · exact hl
        · cases decide (0 < lo) <;> simp <;> omega
    by_cases h0 : hi = some 0
    · right
      rw [loop_apply]
      simp only [Rep.step, h0, if_true, Res.bind_ok]
      exact final _ _ _ _ _ _ _ key (Nat.le_refl _)
    · have := hp j w
      match hr : p j w, this with
      | .ok (.data k v, w1), this =>
        have this : k.buf.length + a.toNat ≤ j.buf.length := this
        have h2 : k.buf.length + (a && decide (0 < lo)).toNat ≤ i.buf.length := by
          cases a <;> simp at this ⊢
          · omega
          · cases decide (0 < lo) <;> simp <;> omega
        cases hf : c.feed acc v with
        | inl acc' =>
          left
          exact ⟨_, w1, by simp [Rep.step, h0, hr, hf]; rfl, by dsimp only; omega,
            .inr (by dsimp only; omega)⟩
        | inr t =>
          right
          rw [loop_apply]
          simp only [Rep.step, h0, if_false, hr, hf, Res.bind_ok]
          exact final _ _ _ _ _ _ _ (fun _ => h2) (Nat.le_refl _)
      | .ok (.error b e, w1), this =>
        right
        rw [loop_apply]
        simp only [Rep.step, h0, if_false, hr, Res.bind_ok]
        split
        · rename_i h; exact key h
        · exact True.intro
      | .ok (.incomplete n, w1), this =>
        right
        rw [loop_apply]
        simp only [Rep.step, h0, if_false, hr, Res.bind_ok]
        exact final _ _ _ _ _ _ _ key this
      | .panic, this =>
        right
        rw [loop_apply]
        simp only [Rep.step, h0, if_false, hr, Res.bind_panic]
        exact this
      | .div, this =>
        right
        rw [loop_apply]
        simp only [Rep.step, h0, if_false, hr, Res.bind_div]
        exact True.intro

theorem nice_skip {a : Bool} {p : Parser σ I U E} (hp : Nice a p) (z : Bool) (lo hi : Nat)
    (hlh : 0 < lo → lo ≤ hi ∨ 0 < hi) :
    Nice (a && decide (0 < lo)) (fun i w => loop (Rep.skipStep z p) (i, lo, hi) w) := by
  intro i w
  refine loop_inv (P := fun s _ => s.1.buf.length ≤ i.buf.length ∧
      ((s.2.1 = lo ∧ s.2.2 = hi) ∨ s.1.buf.length + a.toNat ≤ i.buf.length))
    (Q := NiceR _ i) True.intro ?_ ⟨Nat.le_refl _, .inl ⟨rfl, rfl⟩⟩
  rintro ⟨j, l, h⟩ w ⟨hb, hl⟩
  dsimp only at hb hl
  have key : l = 0 ∨ h = 0 → j.buf.length + (a && decide (0 < lo)).toNat ≤ i.buf.length := by
    intro h0
    rcases hl with ⟨hl, hl'⟩ | hl
    · have : lo = 0 := by
        rcases h0 with h0 | h0 <;> omega
      subst this; simp; exact hb
    · cases a <;> simp at hl ⊢
      · exact hl
      · cases decide (0 < lo) <;> simp <;> omega
  by_cases h0 : h = 0
  · right
    rw [loop_apply]
    simp only [Rep.skipStep, h0, if_true, Res.bind_ok]
    exact key (.inr h0)
  · have := hp j w
    match hr : p j w, this with
    | .ok (.data k v, w1), this =>
      have this : k.buf.length + a.toNat ≤ j.buf.length := this
      left
      exact ⟨_, w1, by simp [Rep.skipStep, h0, hr]; rfl, by dsimp only; omega,
        .inr (by dsimp only; omega)⟩
    | .ok (.error b e, w1), this =>
      right
      rw [loop_apply]
      simp only [Rep.skipStep, h0, if_false, hr, Res.bind_ok]
      split
      · rename_i h; exact key (.inl h)
      · exact this
    | .ok (.incomplete n, w1), this =>
      have this : 1 ≤ n := this
      right
      rw [loop_apply]
      simp only [Rep.skipStep, h0, if_false, hr, Res.bind_ok]
      split
      · rename_i h
        rcases h with h | h
        · exact key (.inl h.1)
        · omega
      · exact this
    | .panic, this =>
      right
      rw [loop_apply]
      simp only [Rep.skipStep, h0, if_false, hr, Res.bind_panic]
      exact this
    | .div, this =>
      right
      rw [loop_apply]
      simp only [Rep.skipStep, h0, if_false, hr, Res.bind_div]
      exact True.intro

theorem needsOne_min {r : Bounded.Range} (h : needsOne r = true) : 0 < Rep.min r := by
  cases r <;> simp_all [needsOne, Rep.min]

theorem nice_many {a : Bool} {p : Parser σ I U E} (hp : Nice a p) (r) (c : Collect U T) :
    Nice (a && needsOne r) (Bounded.many r c p) := by
  by_cases h : Rep.ok r
  · rw [Rep.many_eq h]
    intro i w
    refine (nice_core hp c _ _ i w).weaken fun hc => ?_
    simp only [Bool.and_eq_true, decide_eq_true_eq] at hc ⊢
    exact ⟨hc.1, needsOne_min hc.2⟩
  · cases r with
    | range x y =>
      have h' : ¬ x ≤ y := h
      intro i w
      simp [Bounded.many, Bounded.manyWith, Bounded.manyRange, h']
      exact True.intro
    | _ => exact absurd True.intro h

theorem nice_skipMany {a : Bool} {p : Parser σ I U E} (hp : Nice a p) (r) :
    Nice (a && needsOne r) (Bounded.skipMany r p) := by
  intro i w
  have core : Rep.skipOk r → NiceR (a && needsOne r) i (Bounded.skipMany r p i w) := by
    intro h
    rw [Rep.skipMany_eq h]
    refine (nice_core hp _ _ _ i w).weaken fun hc => ?_
    simp only [Bool.and_eq_true, decide_eq_true_eq] at hc ⊢
    exact ⟨hc.1, needsOne_min hc.2⟩
  cases r with
  | range x y =>
    by_cases h' : x ≤ y
    · show NiceR _ i (Bounded.skipManyRange x y p i w)
      rw [Rep.skipManyRange_eq h']
      by_cases hy : 1 < y
      · refine (nice_skip hp _ _ _ (fun _ => .inr (by omega)) i w).weaken fun hc => ?_
        simp only [Bool.and_eq_true, decide_eq_true_eq, needsOne] at hc ⊢
        exact ⟨hc.1, hc.2.1⟩
      · have h0 : y - 1 = 0 := by omega
        rw [loop_apply]
        simp [Rep.skipStep, h0, needsOne, hy]
        exact Nat.le_refl _
    · simp [Bounded.skipMany, Bounded.skipManyRange, h']
      exact True.intro
  | exactly n =>
    show NiceR _ i (Bounded.skipManyExactly n p i w)
    rw [Rep.skipManyExactly_loop]
    exact nice_skip hp _ _ _ (fun h => .inr h) i w
  | _ => exact core True.intro

theorem nice_test {b : Bool} {e : Parser σ I V N} (he : Nice b e) (i : Input I) :
    ∀ n w, Till.test e n i w ≠ .ub ∧
      ∀ j w', Till.test e n i w = .ok (some j, w') → j.buf.length + b.toNat ≤ i.buf.length := by
  intro n
  induction n with
  | zero => intro w; exact ⟨nofun, nofun⟩
  | succ n ih =>
    intro w
    unfold Till.test
    have := he i w
    match hr : e i w, this with
    | .ok (.data k v, w1), this => exact ⟨nofun, fun j w' h => by cases h; exact this⟩
    | .ok (.error b e, w1), this => exact ih w1
    | .ok (.incomplete n, w1), this => exact ih w1
    | .panic, this => exact ⟨nofun, nofun⟩
    | .div, this => exact ⟨nofun, nofun⟩

theorem nice_till {a b : Bool} {p : Parser σ I U E} {e : Parser σ I V N} (hp : Nice a p) (he : Nice b e)
    (r) (c : Collect U T) : Nice b (Bounded.manyTill r c p e) := by
  intro i w
  rcases Till.manyTill_shapes r c p e with ⟨hok, h⟩ | ⟨hn, h⟩
  · rw [h]
    unfold Till.core
    cases c.start with
    | inr t => exact Nat.le_refl _
    | inl acc =>
      refine loop_inv (P := fun s _ => s.2.1.buf.length ≤ i.buf.length) (Q := NiceR b i) True.intro ?_
        (Nat.le_refl _)
      rintro ⟨acc, j, lo, hi⟩ w hb
      dsimp only at hb
      have ht := nice_test he j (Till.triesAt (Till.last r) lo hi) w
      match hx : Till.test e (Till.triesAt (Till.last r) lo hi) j w, ht with
      | .ok (some k, w0), ht =>
        right
        rw [loop_apply]
        simp only [Till.step, hx, Res.bind_ok]
        cases hg : Till.good r lo hi with
        | true =>
          have := ht.2 k w0 rfl
          show k.buf.length + _ ≤ _
          omega
        | false => exact True.intro
      | .ok (none, w0), ht =>
        by_cases h0 : hi = some 0
        · right
          rw [loop_apply]
          rw [h0] at hx
          simp only [Till.step, hx, h0, if_true, Res.bind_ok]
          exact Nat.le_refl _
        · have := hp j w0
          match hr : p j w0, this with
          | .ok (.data k v, w1), this =>
            have this : k.buf.length + a.toNat ≤ j.buf.length := this
            cases hf : c.feed acc v with
            | inl acc' =>
              left
              exact ⟨_, w1, by simp [Till.step, hx, h0, hr, hf]; rfl, by dsimp only; omega⟩
            | inr t =>
              right
              rw [loop_apply]
              simp only [Till.step, hx, h0, if_false, hr, hf, Res.bind_ok]
              exact Nat.le_refl _
          | .ok (.error b e, w1), this =>
            right
            rw [loop_apply]
            simp only [Till.step, hx, h0, if_false, hr, Res.bind_ok]
            exact this
          | .ok (.incomplete n, w1), this =>
            right
            rw [loop_apply]
            simp only [Till.step, hx, h0, if_false, hr, Res.bind_ok]
            exact this
          | .panic, this =>
            right
            rw [loop_apply]
            simp only [Till.step, hx, h0, if_false, hr, Res.bind_panic, Res.bind_ok]
            exact this
          | .div, this =>
            right
            rw [loop_apply]
            simp only [Till.step, hx, h0, if_false, hr, Res.bind_div, Res.bind_ok]
            exact True.intro
      | .panic, ht =>
        right
        rw [loop_apply]
        simp only [Till.step, hx, Res.bind_panic]
        exact True.intro
      | .div, ht =>
        right
        rw [loop_apply]
        simp only [Till.step, hx, Res.bind_div]
        exact True.intro
      | .ub, ht => exact absurd rfl ht.1
  · rw [h]
    exact True.intro

theorem nice_sepThen {a b : Bool} {p : Parser σ I U E} {sep : Parser σ I V N} (conv : N → E)
    (hp : Nice a p) (hs : Nice b sep) : Nice a (sepThen conv p sep) := by
  intro i w
  unfold sepThen
  have := hs i w
  match hr : sep i w, this with
  | .ok (.data k v, w1), this =>
    have h1 := hp k w1
    dsimp only
    match p k w1, h1 with
    | .ok (.data j _, _), h1 =>
      have h1 : j.buf.length + a.toNat ≤ k.buf.length := h1
      have this : k.buf.length + b.toNat ≤ i.buf.length := this
      show j.buf.length + a.toNat ≤ _
      omega
    | .ok (.error b _, _), h => exact h
    | .ok (.incomplete _, _), h => exact h
    | .panic, h => exact h
    | .div, h => exact h
  | .ok (.error b e, w1), this => exact this
  | .ok (.incomplete n, w1), this => exact this
  | .panic, this => exact this
  | .div, this => exact True.intro

theorem nice_flag {b : Bool} {i : Input I} {f : Bool} {x : Res (ParseResult I U E × σ)}
    (h : NiceR b i x) : NiceR b i (Sep.flag f x) := by
  match x, h with
  | .ok (.data k v, w1), this => exact this
  | .ok (.error b e, w1), this => exact this
  | .ok (.incomplete n, w1), this => exact this
  | .panic, this => exact this
  | .div, this => exact True.intro

theorem nice_sepParser {a b : Bool} {p : Parser σ I U E} {sep : Parser σ I V N} (conv : N → E)
    (hp : Nice a p) (hs : Nice b sep) : Nice a (Comb.sepParser conv p sep) := by
  rintro i ⟨w, f⟩
  rw [Sep.sepParser_eq]
  apply nice_flag
  cases f
  · exact hp i w
  · exact nice_sepThen conv hp hs i w

theorem nice_newLocal {b : Bool} {i : Input I} {x : M (σ × Bool) (ParseResult I U E)} {t : Bool} {w : σ}
    (h : NiceR b i (x (w, t))) : NiceR b i (Comb.newLocal t x w) := by
  rw [Sep.newLocal_eq]
  match x (w, t), h with
  | .ok (.data k v, w1), this => exact this
  | .ok (.error b e, w1), this => exact this
  | .ok (.incomplete n, w1), this => exact this
  | .panic, this => exact this
  | .div, this => exact True.intro

theorem Nice.consumes {p : Parser σ I T E} (h : Nice true p) : Consumes p := by
  intro i w i' u w' hr
  have := h i w
  rw [hr] at this
  exact this

theorem Nice.shrinks {b : Bool} {p : Parser σ I T E} (h : Nice b p) (i w i' u w')
    (hr : p i w = .ok (.data i' u, w')) : i'.buf.length ≤ i.buf.length := by
  have := h i w
  rw [hr] at this
  have this : i'.buf.length + b.toNat ≤ i.buf.length := this
  omega

theorem sep_consumes {a b : Bool} {p : Parser σ I U E} {sep : Parser σ I V N} (h : a = true ∨ b = true)
    (hp : Nice a p) (hs : Nice b sep) : Consumes p ∨ Consumes sep := by
  rcases h with rfl | rfl
  · exact .inl hp.consumes
  · exact .inr hs.consumes

theorem nice_matchedBy {a : Bool} {p : Parser σ I T E} (hp : Nice a p) : Nice a (Comb.matchedBy p) := by
  intro i w
  unfold Comb.matchedBy
  rw [M.bind_apply]
  have := hp i w
  match hr : p i w, this with
  | .ok (.data k v, w1), this =>
    dsimp only [Res.bind_ok]
    have hl : k.buf.length + a.toNat ≤ i.buf.length := this
    rw [usub_ok (by omega), M.bind_ok (M.lift_ok _ _), M.bind_ok (sliceTo_ok (by omega) _)]
    exact this
  | .ok (.error b e, w1), this => exact this
  | .ok (.incomplete n, w1), this => exact this
  | .panic, this => exact this
  | .div, this => exact True.intro

theorem nice_map {a : Bool} {p : Parser σ I T E} (hp : Nice a p) (f : T → U) : Nice a (Parser.map p f) := by
  intro i w
  refine nice_bind (k := fun r => r.map (fun t => pure (f t))) (hp i w) ?_ ?_ ?_
  · intro j t w h; exact h
  · intro b e w; exact True.intro
  · intro n w hn; exact hn

theorem returns_map {p : Parser σ I T E} (hp : Returns p) (f : T → U) : Returns (Parser.map p f) := by
  intro i w
  refine ne_div_bind (hp i w) ?_
  rintro ⟨r, w'⟩ _
  cases r <;> exact nofun

theorem nice_option {a : Bool} {p : Parser σ I T E} (hp : Nice a p) (t : T) : Nice false (Comb.option p t) := by
  intro i w
  unfold Comb.option
  rw [M.bind_apply]
  refine nice_bind (k := fun r => match r with
    | .data b d => pure (b.ret d)
    | .error _ _ => pure (i.ret t)
    | .incomplete n => if i.isLastSlice then pure (i.ret t) else pure (i.incomplete n))
    (hp i w) ?_ ?_ ?_
  · intro j t w h
    show j.buf.length + 0 ≤ _
    omega
  · intro b e w; exact Nat.le_refl _
  · intro n w hn
    dsimp only
    split
    · exact Nat.le_refl _
    · exact hn

theorem returns_option {p : Parser σ I T E} (hp : Returns p) (t : T) : Returns (Comb.option p t) := by
  intro i w
  unfold Comb.option
  rw [M.bind_apply]
  refine ne_div_bind (hp i w) ?_
  rintro ⟨r, w'⟩ _
  cases r with
  | data j t => exact nofun
  | error b e => exact nofun
  | incomplete n => dsimp only; split <;> exact nofun

theorem nice_or {a b : Bool} {p q : Parser σ I T E} (hp : Nice a p) (hq : Nice b q) :
    Nice (a && b) (Comb.or p q) := by
  intro i w
  have hq' : ∀ w, NiceR (a && b) i (q i w) := fun w => (hq i w).weaken (by simp)
  unfold Comb.or
  rw [M.bind_apply]
  refine nice_bind (k := fun r => match r with
    | .data b d => pure (b.ret d)
    | .error _ _ => q i
    | .incomplete n => if i.isLastSlice then q i else pure (i.incomplete n))
    ((hp i w).weaken (c := a && b) (by simp; exact fun h _ => h)) ?_ ?_ ?_
  · intro j t w h; exact h
  · intro b e w; exact hq' w
  · intro n w hn
    dsimp only
    split
    · exact hq' w
    · exact hn

theorem returns_or {p q : Parser σ I T E} (hp : Returns p) (hq : Returns q) : Returns (Comb.or p q) := by
  intro i w
  unfold Comb.or
  rw [M.bind_apply]
  refine ne_div_bind (hp i w) ?_
  rintro ⟨r, w'⟩ _
  cases r with
  | data j t => exact nofun
  | error b e => exact hq i w'
  | incomplete n =>
    dsimp only
    split
    · exact hq i w'
    · exact nofun

theorem lift_ne {x : Res A} {w : σ} : (x ≠ .ub → (M.lift x : M σ A) w ≠ .ub) ∧
    (x ≠ .div → (M.lift x : M σ A) w ≠ .div) := by
  cases x <;> simp

theorem toDecimal_ne {N : Ascii.Num T} (hN : Computes N) : ∀ (b : List UInt8) (x : T),
    b.foldlM (fun a n => do
      let x ← N.mul a (N.fromU8 10)
      let d ← Ascii.digitValue n
      N.add x (N.fromU8 d)) x ≠ Res.div ∧
    b.foldlM (fun a n => do
      let x ← N.mul a (N.fromU8 10)
      let d ← Ascii.digitValue n
      N.add x (N.fromU8 d)) x ≠ Res.ub := by
  intro b
  induction b with
  | nil => intro x; exact ⟨nofun, nofun⟩
  | cons c b ih =>
    intro x
    rw [List.foldlM_cons]
    cases h1 : N.mul x (N.fromU8 10) with
    | ok y =>
      simp only [Res.bind_ok, Ascii.digitValue]
      split
      · simp only [Res.bind_ok]
        cases h2 : N.add y (N.fromU8 (c - 48)) with
        | ok z => exact ih z
        | panic => simp
        | ub => exact absurd h2 (hN.1 _ _).2
        | div => exact absurd h2 (hN.1 _ _).1
      · simp
    | panic => simp
    | ub => exact absurd h1 (hN.2 _ _).2
    | div => exact absurd h1 (hN.2 _ _).1

theorem nice_decimal (v) (N : Ascii.Num T) (hN : Computes N) :
    Nice true (Ascii.decimal (σ := σ) v N) := by
  refine nice_bindP (b := false) (nice_takeWhile1 v _) fun t i w => ?_
  refine nice_effect (k := fun x => pure (i.ret x)) (lift_ne.1 (toDecimal_ne hN t _).2) ?_
  intro x w; exact Nat.le_refl _

theorem returns_decimal (v) (N : Ascii.Num T) (hN : Computes N) :
    Returns (Ascii.decimal (σ := σ) v N) := by
  refine returns_bindP (takeWhile1_returns v _) fun t i w => ?_
  exact ne_div_bind (lift_ne.2 (toDecimal_ne hN t _).1) fun _ _ => nofun

theorem nice_signed {a : Bool} (v) (N : Ascii.Num T) (hN : Computes N)
    {p : Parser σ UInt8 T (Error UInt8)} (hp : Nice a p) : Nice a (Ascii.signed v N p) := by
  intro i w
  unfold Ascii.signed
  rw [M.bind_apply]
  refine nice_bind (k := fun r => r.bind id (fun i sign => do
    let q ← p i
    q.map (fun num => M.lift (N.mul sign num)))) (nice_option (nice_map (nice_satisfy v _) _) _ i w) ?_ ?_ ?_
  · intro j sign w h1
    rw [ParseResult.bind_data, M.bind_apply]
    refine nice_bind (a := a) (k := fun q => q.map (fun num => M.lift (N.mul sign num))) ?_ ?_ ?_ ?_
    · have := hp j w
      match p j w, this with
      | .ok (.data k v, w1), this =>
        have this : k.buf.length + a.toNat ≤ j.buf.length := this
        show k.buf.length + a.toNat ≤ _
        omega
      | .ok (.error b e, w1), this => exact this
      | .ok (.incomplete n, w1), this => exact this
      | .panic, this => exact this
      | .div, this => exact True.intro
    · intro j' t w h1
      refine nice_effect (k := fun u => pure (.data j' u)) (lift_ne.1 (hN.2 _ _).2) ?_
      intro x w; exact h1
    · intro b e w; exact True.intro
    · intro n w hn; exact hn
  · intro b e w; exact True.intro
  · intro n w hn; exact hn

theorem returns_signed (v) (N : Ascii.Num T) (hN : Computes N)
    {p : Parser σ UInt8 T (Error UInt8)} (hp : Returns p) : Returns (Ascii.signed v N p) := by
  intro i w
  unfold Ascii.signed
  rw [M.bind_apply]
  refine ne_div_bind (returns_option (returns_map (satisfy_returns v _) _) _ i w) ?_
  rintro ⟨r, w'⟩ _
  cases r with
  | data j s =>
    dsimp only
    rw [ParseResult.bind_data, M.bind_apply]
    refine ne_div_bind (hp j w') ?_
    rintro ⟨q, w''⟩ _
    cases q with
    | data k t => exact ne_div_bind (lift_ne.2 (hN.2 _ _).1) fun _ _ => nofun
    | error b e => exact nofun
    | incomplete n => exact nofun
  | error b e => exact nofun
  | incomplete n => exact nofun

/-- The check is sound. -/
theorem nice_mapErr {a : Bool} {p : Parser σ I T E} (hp : Nice a p) (f : E → V) :
    Nice a (Parser.mapErr p f) := by
  intro i w
  refine nice_bind (k := fun r => r.mapErr (fun t => pure (f t))) (hp i w) ?_ ?_ ?_
  · intro j t w h; exact h
  · intro b e w; exact True.intro
  · intro n w hn; exact hn

theorem returns_mapErr {p : Parser σ I T E} (hp : Returns p) (f : E → V) : Returns (Parser.mapErr p f) := by
  intro i w
  refine ne_div_bind (hp i w) ?_
  rintro ⟨r, w'⟩ _
  cases r <;> exact nofun

theorem nice_inspect {a : Bool} {p : Parser σ I T E} (hp : Nice a p) (f : T → M σ Unit)
    (hf : ∀ t, Closure (f t)) : Nice a (Parser.inspect p f) := by
  intro i w
  refine nice_bind (k := fun r => r.inspect f) (hp i w) ?_ ?_ ?_
  · intro j t w h
    exact nice_effect (k := fun _ => pure (.data j t)) ((hf t w).2) fun x w => h
  · intro b e w; exact True.intro
  · intro n w hn; exact hn

theorem returns_inspect {p : Parser σ I T E} (hp : Returns p) (f : T → M σ Unit)
    (hf : ∀ t, Closure (f t)) : Returns (Parser.inspect p f) := by
  intro i w
  refine ne_div_bind (hp i w) ?_
  rintro ⟨r, w'⟩ _
  cases r with
  | data j t => exact ne_div_bind (hf t w').1 fun _ _ => nofun
  | error b e => exact nofun
  | incomplete n => exact nofun

theorem nice_mapM {a : Bool} {p : Parser σ I T E} (hp : Nice a p) (f : T → M σ U)
    (hf : ∀ t, Closure (f t)) : Nice a (Closures.map p f) := by
  intro i w
  refine nice_bind (k := fun r => r.map f) (hp i w) ?_ ?_ ?_
  · intro j t w h
    exact nice_effect (k := fun u => pure (.data j u)) ((hf t w).2) fun x w => h
  · intro b e w; exact True.intro
  · intro n w hn; exact hn

theorem returns_mapM {p : Parser σ I T E} (hp : Returns p) (f : T → M σ U)
    (hf : ∀ t, Closure (f t)) : Returns (Closures.map p f) := by
  intro i w
  refine ne_div_bind (hp i w) ?_
  rintro ⟨r, w'⟩ _
  cases r with
  | data j t => exact ne_div_bind (hf t w').1 fun _ _ => nofun
  | error b e => exact nofun
  | incomplete n => exact nofun

theorem nice_mapErrM {a : Bool} {p : Parser σ I T E} (hp : Nice a p) (f : E → M σ V)
    (hf : ∀ e, Closure (f e)) : Nice a (Closures.mapErr p f) := by
  intro i w
  refine nice_bind (k := fun r => r.mapErr f) (hp i w) ?_ ?_ ?_
  · intro j t w h; exact h
  · intro b e w
    exact nice_effect (k := fun u => pure (.error b u)) ((hf e w).2) fun x w => True.intro
  · intro n w hn; exact hn

theorem returns_mapErrM {p : Parser σ I T E} (hp : Returns p) (f : E → M σ V)
    (hf : ∀ e, Closure (f e)) : Returns (Closures.mapErr p f) := by
  intro i w
  refine ne_div_bind (hp i w) ?_
  rintro ⟨r, w'⟩ _
  cases r with
  | data j t => exact nofun
  | error b e => exact ne_div_bind (hf e w').1 fun _ _ => nofun
  | incomplete n => exact nofun

theorem returns_matchedBy {a : Bool} {p : Parser σ I T E} (hn : Nice a p) (hp : Returns p) :
    Returns (Comb.matchedBy p) := by
  intro i w
  unfold Comb.matchedBy
  rw [M.bind_apply]
  refine ne_div_bind (hp i w) ?_
  rintro ⟨r, w'⟩ hr
  cases r with
  | data j t =>
    have := hn.shrinks _ _ _ _ _ hr
    dsimp only
    rw [usub_ok this, M.bind_ok (M.lift_ok _ _), M.bind_ok (sliceTo_ok (by omega) _)]
    exact nofun
  | error b e => exact nofun
  | incomplete n => exact nofun

theorem nice_lookAhead {a : Bool} {p : Parser σ I T E} (hp : Nice a p) : Nice false (Comb.lookAhead p) := by
  intro i w
  unfold Comb.lookAhead
  rw [M.bind_apply]
  refine nice_bind (k := fun r => match r with
    | .data _ t => pure (i.ret t)
    | .error b t => pure ((i.replace b).err t)
    | .incomplete n => pure (i.incomplete n)) (hp i w) ?_ ?_ ?_
  · intro j t w h; exact Nat.le_refl _
  · intro b e w; exact True.intro
  · intro n w hn; exact hn

theorem returns_lookAhead {p : Parser σ I T E} (hp : Returns p) : Returns (Comb.lookAhead p) := by
  intro i w
  unfold Comb.lookAhead
  rw [M.bind_apply]
  refine ne_div_bind (hp i w) ?_
  rintro ⟨r, w'⟩ _
  cases r <;> exact nofun

theorem sound {c : Bool} {σ I T E : Type} {p : Parser σ I T E} (h : Spec.Productive c p) :
    Nice c p ∧ Returns p := by
  induction h with
  | weaken _ ih => exact ⟨fun i w => (ih.1 i w).weaken (fun _ => rfl), ih.2⟩
  | ret t => exact ⟨fun i w => Nat.le_refl _, fun i w => nofun⟩
  | err e => exact ⟨fun i w => True.intro, fun i w => nofun⟩
  | fromResult r => cases r <;> exact ⟨fun i w => by first | exact Nat.le_refl _ | exact True.intro, fun i w => nofun⟩
  | incomplete n h => exact ⟨fun i w => h, fun i w => nofun⟩
  | bind _ _ ihp ihf => exact ⟨nice_bindP ihp.1 fun t => (ihf t).1, returns_bindP ihp.2 fun t => (ihf t).2⟩
  | andThen _ _ ihp ihq =>
    exact ⟨nice_bindP (f := fun _ => _) ihp.1 fun _ => ihq.1, returns_bindP (f := fun _ => _) ihp.2 fun _ => ihq.2⟩
  | map f _ ih => exact ⟨nice_map ih.1 f, returns_map ih.2 f⟩
  | mapErr f _ ih => exact ⟨nice_mapErr ih.1 f, returns_mapErr ih.2 f⟩
  | inspect f hf _ ih => exact ⟨nice_inspect ih.1 f hf, returns_inspect ih.2 f hf⟩
  | effect hg _ ih =>
    refine ⟨fun i w => ?_, fun i w => ?_⟩
    · exact nice_effect (k := fun x => _) (hg w).2 fun x w => (ih x).1 i w
    · exact ne_div_bind (hg w).1 fun x _ => (ih x.1).2 i x.2
  | any => exact ⟨fun ⟨m, b⟩ w => by rw [Parsers.any_eq]; cases b <;> exact Nat.le_refl _, any_returns⟩
  | satisfy v f => exact ⟨nice_satisfy v f, satisfy_returns v f⟩
  | satisfyWith v f p =>
    refine ⟨fun ⟨m, b⟩ w => ?_, fun ⟨m, b⟩ w => ?_⟩ <;> rw [Parsers.satisfyWith_eq]
    · cases b with
      | nil => exact Nat.le_refl _
      | cons c r =>
        by_cases h : p (f c) = true
        · simp only [h, if_true]; exact Nat.le_refl _
        · simp only [h]; exact True.intro
    · cases b with
      | nil => exact nofun
      | cons c r => dsimp only; split <;> exact nofun
  | token v t =>
    refine ⟨fun ⟨m, b⟩ w => ?_, fun ⟨m, b⟩ w => ?_⟩ <;> rw [Parsers.token_eq]
    · cases b with
      | nil => exact Nat.le_refl _
      | cons c r =>
        by_cases h : t = c
        · simp only [h, if_true]; exact Nat.le_refl _
        · simp only [h, if_false]; exact True.intro
    · cases b with
      | nil => exact nofun
      | cons c r => dsimp only; split <;> exact nofun
  | notToken v t =>
    refine ⟨fun ⟨m, b⟩ w => ?_, fun ⟨m, b⟩ w => ?_⟩ <;> rw [Parsers.notToken_eq]
    · cases b with
      | nil => exact Nat.le_refl _
      | cons c r =>
        by_cases h : t = c
        · simp only [h, if_true]; exact True.intro
        · simp only [h, if_false]; exact Nat.le_refl _
    · cases b with
      | nil => exact nofun
      | cons c r => dsimp only; split <;> exact nofun
  | peek => exact ⟨fun i w => Nat.le_refl _, fun i w => nofun⟩
  | peekNext =>
    refine ⟨fun ⟨m, b⟩ w => ?_, fun ⟨m, b⟩ w => ?_⟩ <;> rw [Parsers.peekNext_eq]
    · cases b <;> exact Nat.le_refl _
    · cases b <;> exact nofun
  | take n => exact ⟨nice_take n, fun i w => by rw [Parsers.take_eq]; split <;> exact nofun⟩
  | takeWhile f => exact ⟨nice_takeWhile f, fun i w => by rw [Parsers.takeWhile_eq]; split <;> exact nofun⟩
  | takeWhile1 v f => exact ⟨nice_takeWhile1 v f, takeWhile1_returns v f⟩
  | takeTill f => exact ⟨nice_takeTill f, fun i w => by rw [Parsers.takeTill_eq]; split <;> exact nofun⟩
  | scan s f =>
    refine ⟨nice_scan s f, fun ⟨m, b⟩ w => ?_⟩
    rcases Parsers.scan_cases f b s with ⟨s', h⟩ | ⟨x, c, y, s', rfl, hx, hc⟩
    · rw [Parsers.scan_none w h]; exact nofun
    · rw [Parsers.scan_stop w hx hc]; exact nofun
  | runScanner s f =>
    refine ⟨nice_runScanner s f, fun ⟨m, b⟩ w => ?_⟩
    rcases Parsers.scan_cases f b s with ⟨s', h⟩ | ⟨x, c, y, s', rfl, hx, hc⟩
    · rw [Parsers.runScanner_none w h]; exact nofun
    · rw [Parsers.runScanner_stop w hx hc]; exact nofun
  | takeRemainder =>
    refine ⟨fun i w => ?_, fun i w => ?_⟩ <;> rw [Parsers.takeRemainder_eq]
    · exact Nat.zero_le _
    · exact nofun
  | string v s =>
    refine ⟨nice_string v s, fun ⟨m, b⟩ w => ?_⟩
    rcases Parsers.string_cases s b with h | ⟨r, rfl⟩ | ⟨x, t, c, s', r, rfl, rfl, hn, hl⟩
    · rw [Parsers.string_short w h]; exact nofun
    · rw [Parsers.string_match w]; exact nofun
    · rw [Parsers.string_mismatch w hn hl]; exact nofun
  | eof v =>
    refine ⟨fun i w => ?_, fun i w => ?_⟩ <;> rw [Parsers.eof_eq]
    · split
      · exact Nat.le_refl _
      · exact True.intro
    · split <;> exact nofun
  | mapM f hf _ ih => exact ⟨nice_mapM ih.1 f hf, returns_mapM ih.2 f hf⟩
  | mapErrM f hf _ ih => exact ⟨nice_mapErrM ih.1 f hf, returns_mapErrM ih.2 f hf⟩
  | satisfyM v f hf =>
    exact settles (Closures.settles_satisfy v f) (fun ⟨c, w, e⟩ => (hf c w).1 e)
      (fun ⟨c, w, e⟩ => (hf c w).2 e)
  | satisfyWithM v f p hf hp =>
    refine settles (Closures.settles_satisfyWith v f p) ?_ ?_ <;> rintro (⟨c, w, e⟩ | ⟨t, w, e⟩)
    · exact (hf c w).1 e
    · exact (hp t w).1 e
    · exact (hf c w).2 e
    · exact (hp t w).2 e
  | tokenM eq v t hf =>
    exact settles (Closures.settles_token eq v t) (fun ⟨c, w, e⟩ => (hf c w).1 e)
      (fun ⟨c, w, e⟩ => (hf c w).2 e)
  | notTokenM ne v t hf =>
    exact settles (Closures.settles_notToken ne v t) (fun ⟨c, w, e⟩ => (hf c w).1 e)
      (fun ⟨c, w, e⟩ => (hf c w).2 e)
  | takeWhileM f hf =>
    exact settles (Closures.settles_takeWhile f) (fun ⟨c, w, e⟩ => (hf c w).1 e)
      (fun ⟨c, w, e⟩ => (hf c w).2 e)
  | takeWhile1M v f hf =>
    exact settles (Closures.settles_takeWhile1 v f) (fun ⟨c, w, e⟩ => (hf c w).1 e)
      (fun ⟨c, w, e⟩ => (hf c w).2 e)
  | takeTillM f hf =>
    exact settles (Closures.settles_takeTill f) (fun ⟨c, w, e⟩ => (hf c w).1 e)
      (fun ⟨c, w, e⟩ => (hf c w).2 e)
  | scanM s f hf =>
    exact settles (Closures.settles_scan s f) (fun ⟨s, c, w, e⟩ => (hf s c w).1 e)
      (fun ⟨s, c, w, e⟩ => (hf s c w).2 e)
  | runScannerM s f hf =>
    exact settles (Closures.settles_runScanner s f) (fun ⟨s, c, w, e⟩ => (hf s c w).1 e)
      (fun ⟨s, c, w, e⟩ => (hf s c w).2 e)
  | stringM ne v s hf =>
    exact settles (Closures.settles_string ne v s) (fun ⟨t, c, w, e⟩ => (hf t c w).1 e)
      (fun ⟨t, c, w, e⟩ => (hf t c w).2 e)
  | count n c _ ih => exact ⟨nice_many ih.1 (.exactly n) c, C30_many (.exactly n) c _ ih.2 (.inr True.intro)⟩
  | option t _ ih => exact ⟨nice_option ih.1 t, returns_option ih.2 t⟩
  | or _ _ ihp ihq => exact ⟨nice_or ihp.1 ihq.1, returns_or ihp.2 ihq.2⟩
  | many c _ ih => exact ⟨nice_many ih.1 .full c, C30_many .full c _ ih.2 (.inl ih.1.consumes)⟩
  | many1 c _ ih => exact ⟨nice_many ih.1 (.from_ 1) c, C30_many (.from_ 1) c _ ih.2 (.inl ih.1.consumes)⟩
  | sepBy conv c h _ _ ihp ihs =>
    refine ⟨fun i w => nice_newLocal (?_ : NiceR false i _),
      (C30_sep_by conv c _ _ ihp.2 ihs.2 (sep_consumes h ihp.1 ihs.1) ihp.1.shrinks ihs.1.shrinks).1⟩
    have := nice_many (nice_sepParser conv ihp.1 ihs.1) .full c i (w, false)
    rwa [show needsOne .full = false from rfl, Bool.and_false] at this
  | sepBy1 conv c h _ _ ihp ihs =>
    refine ⟨fun i w => nice_newLocal (?_ : NiceR _ i _),
      (C30_sep_by conv c _ _ ihp.2 ihs.2 (sep_consumes h ihp.1 ihs.1) ihp.1.shrinks ihs.1.shrinks).2⟩
    have := nice_many (nice_sepParser conv ihp.1 ihs.1) (.from_ 1) c i (w, false)
    rwa [show needsOne (.from_ 1) = true from rfl, Bool.and_true] at this
  | manyTill c _ _ ihp ihe =>
    exact ⟨nice_till ihp.1 ihe.1 .full c, C30_many_till .full c _ _ ihp.2 ihe.2 (.inl ihp.1.consumes)⟩
  | skipMany _ ih => exact ⟨nice_skipMany ih.1 .full, C30_skip_many .full _ ih.2 (.inl ih.1.consumes)⟩
  | skipMany1 _ ih => exact ⟨nice_skipMany ih.1 (.from_ 1), C30_skip_many (.from_ 1) _ ih.2 (.inl ih.1.consumes)⟩
  | matchedBy _ ih => exact ⟨nice_matchedBy ih.1, returns_matchedBy ih.1 ih.2⟩
  | lookAhead _ ih => exact ⟨nice_lookAhead ih.1, returns_lookAhead ih.2⟩
  | boundedMany r c hr _ ih =>
    refine ⟨nice_many ih.1 r c, C30_many r c _ ih.2 (hr.imp ?_ id)⟩
    rintro rfl; exact ih.1.consumes
  | boundedSkipMany r hr _ ih =>
    refine ⟨nice_skipMany ih.1 r, C30_skip_many r _ ih.2 (hr.imp ?_ id)⟩
    rintro rfl; exact ih.1.consumes
  | boundedManyTill r c hr _ _ ihp ihe =>
    refine ⟨nice_till ihp.1 ihe.1 r c, C30_many_till r c _ _ ihp.2 ihe.2 (hr.imp ?_ id)⟩
    rintro rfl; exact ihp.1.consumes
  | skipWhitespace =>
    exact ⟨nice_map (nice_takeWhile _) _, returns_map (fun i w => by rw [Parsers.takeWhile_eq]; split <;> exact nofun) _⟩
  | digit v => exact ⟨nice_satisfy v _, satisfy_returns v _⟩
  | decimal v N hN => exact ⟨nice_decimal v N hN, returns_decimal v N hN⟩
  | signed v N hN _ ih => exact ⟨nice_signed v N hN ih.1, returns_signed v N hN ih.2⟩

end Productive

end Chomp
