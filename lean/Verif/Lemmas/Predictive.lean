import Verif.Spec.Predictive
import Verif.Lemmas.Work
import Verif.Props.Unroll
import Verif.Props.Choice

/-
Runs of parsers for which the next item decides.
-/

namespace Chomp

open Spec

namespace Predictive

variable {σ I : Type} {m : σ → Nat} {a : Nat}

theorem built {L : Look I} {p : Parser σ I T E} (h : Spec.Predictive m a L p) : Built everything p := by
  induction h with
  | known hb _ => exact hb
  | weaken _ _ ih => exact ih
  | ret t => exact .ret t
  | err e => exact .err e
  | bind _ _ _ ihp ihf => exact .bind ihp ihf
  | andThen _ _ _ ihp ihq => exact .andThen ihp ihq
  | map f _ ih => exact .map f ih
  | mapErr f _ ih => exact .mapErr f ih
  | inspect f _ _ ih => exact .inspect f nofun ih
  | effect _ _ ih => exact .effect nofun ih
  | any => exact .any
  | satisfy v f => exact .satisfy v f
  | token v t => exact .token v t
  | notToken v t => exact .notToken v t
  | takeWhile f => exact .takeWhile f
  | takeWhile1 v f => exact .takeWhile1 v f
  | eof v => exact .eof v rfl
  | satisfyM v f _ _ _ => exact .satisfyM v f nofun
  | tokenM eq v t _ _ _ => exact .tokenM eq v t nofun
  | takeWhileM f _ _ _ _ => exact .takeWhileM f nofun
  | takeWhile1M v f _ _ _ _ => exact .takeWhile1M v f nofun
  | or _ _ _ ihp ihq => exact .or ihp ihq
  | option t _ _ ih => exact .option t ih
  | many _ _ ih => exact .many _ ih
  | many1 _ _ _ ih => exact .many1 _ ih
  | skipMany _ _ ih => exact .skipMany ih
  | skipMany1 _ _ _ ih => exact .skipMany1 ih
  | sepBy1 conv _ _ _ _ _ ihp ihs => exact .sepBy1 conv _ ihp ihs
  | sepBy conv _ _ _ _ _ _ ihp ihs => exact .sepBy conv _ ihp ihs
  | manyTill _ _ _ _ _ ihp ihe => exact .manyTill _ nofun ihp ihe
  | matchedBy _ ih => exact .matchedBy ih

/-- The runs of `x` from the input `i` are as `L` says. -/
def At (m : σ → Nat) (a : Nat) (L : Look I) (i : Input I) (x : M σ (ParseResult I T E)) : Prop :=
  ∀ w r w', x w = .ok (r, w') → AsSaid m a L i w r w'

theorem begins_not {A : I → Prop} {B : I → Prop} {x : List I} (h : ∀ c, A c → ¬ B c) (hx : Begins A x) :
    ¬ Begins B x := by
  obtain ⟨c, z, rfl, hc⟩ := hx
  rintro ⟨d, y, e, hd⟩
  cases e
  exact h c hc hd

theorem begins_mono {A : I → Prop} {B : I → Prop} {x : List I} (h : ∀ c, A c → B c) (hx : Begins A x) :
    Begins B x := by
  obtain ⟨c, z, rfl, hc⟩ := hx
  exact ⟨c, z, rfl, h c hc⟩

theorem begins_iff {A : I → Prop} {B : I → Prop} {x : List I} (h : ∀ c, A c ↔ B c) : Begins A x ↔ Begins B x :=
  ⟨begins_mono fun c => (h c).mp, begins_mono fun c => (h c).mpr⟩

theorem begins_or {A B C : I → Prop} {x : List I} (h : ∀ c, A c ↔ B c ∨ C c) :
    Begins A x ↔ Begins B x ∨ Begins C x := by
  constructor
  · rintro ⟨c, z, rfl, hc⟩
    rcases (h c).mp hc with hc | hc
    · exact .inl ⟨c, z, rfl, hc⟩
    · exact .inr ⟨c, z, rfl, hc⟩
  · rintro (⟨c, z, rfl, hc⟩ | ⟨c, z, rfl, hc⟩)
    · exact ⟨c, z, rfl, (h c).mpr (.inl hc)⟩
    · exact ⟨c, z, rfl, (h c).mpr (.inr hc)⟩

theorem begins_length {A : I → Prop} {x : List I} (h : Begins A x) : 1 ≤ x.length := by
  obtain ⟨c, z, rfl, _⟩ := h
  simp

theorem scale {k n : Nat} (a : Nat) (h : k ≤ n) : (a : Int) * k ≤ a * n := by
  have := Nat.mul_le_mul_left a h
  exact_mod_cast this

theorem scale_lt {k n : Nat} (a : Nat) (h : k < n) : (a : Int) * k + a ≤ a * n := by
  have := Nat.mul_le_mul_left a h
  have e : a * (k + 1) = a * k + a := Nat.mul_succ a k
  rw [Nat.succ_eq_add_one, e] at this
  exact_mod_cast this

/-- AsSaid, from the result of another run. -/
theorem AsSaid.cost {L : Look I} {i : Input I} {w w' : σ} {r : ParseResult I T E} (h : AsSaid m a L i w r w')
    {c : Nat} (h1 : L.out ≤ c) (h2 : L.done ≤ c) (h3 : L.fail ≤ c) : m w' ≤ m w + a * i.buf.length + c := by
  have key : (m w' : Int) ≤ m w + a * i.buf.length + c := by
    by_cases hb : Begins L.first i.buf
    · cases r with
      | data j t =>
        obtain ⟨_, h | ⟨_, h⟩⟩ := (h.2 hb).1 j t rfl
        · have : (0 : Int) ≤ a * j.buf.length := Int.mul_nonneg (by omega) (by omega)
          omega
        · omega
      | error b e =>
        have := (h.2 hb).2 nofun
        omega
      | incomplete n =>
        have := (h.2 hb).2 nofun
        omega
    · have := (h.1 hb).1
      have h0 : (0 : Int) ≤ a * i.buf.length := Int.mul_nonneg (by omega) (by omega)
      omega
  exact_mod_cast key

theorem AsSaid.congr {L : Look I} {i : Input I} {w w' : σ} {r : ParseResult I T E} {r' : ParseResult I U V}
    (h : AsSaid m a L i w r w') (hd : ∀ j u, r' = .data j u → ∃ t, r = .data j t)
    (hn : (∀ j u, r' ≠ .data j u) → ∀ j t, r ≠ .data j t) : AsSaid m a L i w r' w' := by
  refine ⟨fun hb => ⟨(h.1 hb).1, fun j u e => ?_⟩, fun hb => ⟨fun j u e => ?_, fun hr => (h.2 hb).2 (hn hr)⟩⟩
  · obtain ⟨t, ht⟩ := hd j u e
    exact (h.1 hb).2 j t ht
  · obtain ⟨t, ht⟩ := hd j u e
    exact (h.2 hb).1 j t ht

theorem AsSaid.less {P L : Look I} (hl : Less P L) {i : Input I} {w w' : σ} {r : ParseResult I T E}
    (h : AsSaid m a P i w r w') : AsSaid m a L i w r w' := by
  have hf := begins_iff (x := i.buf) hl.first
  have := hl.out
  have := hl.done
  have := hl.fail
  refine ⟨fun hb => ?_, fun hb => ?_⟩
  · obtain ⟨h1, h2⟩ := h.1 (fun h => hb (hf.mpr h))
    exact ⟨by omega, fun j t e => ⟨hl.empty (h2 j t e).1, (h2 j t e).2⟩⟩
  · obtain ⟨h1, h2⟩ := h.2 (hf.mp hb)
    refine ⟨fun j t e => ?_, fun hr => by have := h2 hr; omega⟩
    obtain ⟨h3, h4⟩ := h1 j t e
    refine ⟨h3.imp_right fun h => ⟨hl.empty h.1, h.2⟩, ?_⟩
    rcases h4 with h4 | ⟨h4, h5⟩
    · exact .inl (by omega)
    · exact .inr ⟨begins_mono hl.stop h4, by omega⟩

/-- One more call after or before a run. -/
theorem AsSaid.call {P : Look I} {i : Input I} {w w1 w2 w' : σ} {r : ParseResult I T E}
    (h : AsSaid m a P i w1 r w2) (h1 : m w1 + m w' ≤ m w + m w2 + 1) : AsSaid m a P.call i w r w' := by
  refine ⟨fun hb => ?_, fun hb => ?_⟩
  · obtain ⟨h2, h3⟩ := h.1 hb
    exact ⟨by show m w' ≤ m w + (P.out + 1); omega, h3⟩
  · obtain ⟨h2, h3⟩ := h.2 hb
    refine ⟨fun j t e => ⟨(h2 j t e).1, ?_⟩, fun hr => ?_⟩
    · show _ ≤ _ + (P.done + 1) ∨ (_ ∧ _ ≤ _ + (P.fail + 1))
      rcases (h2 j t e).2 with h4 | ⟨h4, h5⟩
      · exact .inl (by omega)
      · exact .inr ⟨h4, by omega⟩
    · show _ ≤ _ + (P.fail + 1)
      have := h3 hr
      omega

/-- One after the other. -/
theorem AsSaid.seq {P Q L : Look I} (hs : Sequence a P Q L) {i j : Input I} {w w1 w' : σ} {t : T}
    {r : ParseResult I U V} (hp : AsSaid (E := E) m a P i w (.data j t) w1) (hq : AsSaid m a Q j w1 r w') :
    AsSaid m a L i w r w' := by
  have hf : Begins L.first i.buf ↔ Begins P.first i.buf ∨ (P.empty = true ∧ Begins Q.first i.buf) := by
    rw [begins_or hs.first]
    constructor
    · rintro (h | ⟨c, z, e, h⟩)
      · exact .inl h
      · exact .inr ⟨h.1, c, z, e, h.2⟩
    · rintro (h | ⟨h, c, z, e, h'⟩)
      · exact .inl h
      · exact .inr ⟨c, z, e, h, h'⟩
  obtain ⟨ho1, ho2⟩ := hs.out
  obtain ⟨hd1, hd2, hd3⟩ := hs.done
  obtain ⟨hf1, hf2, hf3, hf4⟩ := hs.fail
  by_cases hP : Begins P.first i.buf
  · -- the first one begins
    refine ⟨fun hb => absurd (hf.mpr (.inl hP)) hb, fun _ => ?_⟩
    obtain ⟨hl, hc⟩ := (hp.2 hP).1 j t rfl
    have hle : j.buf.length ≤ i.buf.length := by omega
    have hsc := scale a hle
    have h0 : (0 : Int) ≤ a * j.buf.length := Int.mul_nonneg (by omega) (by omega)
    by_cases hQ : Begins Q.first j.buf
    · have hc' : (m w1 : Int) + a * j.buf.length ≤ m w + a * i.buf.length + P.done := by
        rcases hc with hc | ⟨hc, _⟩
        · exact hc
        · exact absurd hQ (begins_not hs.apart hc)
      obtain ⟨hq1, hq2⟩ := hq.2 hQ
      refine ⟨fun k u e => ?_, fun hr => by have := hq2 hr; omega⟩
      obtain ⟨hl', h4⟩ := hq1 k u e
      refine ⟨?_, ?_⟩
      · rcases hl with hl | ⟨h1, hl⟩
        · exact .inl (by omega)
        · rcases hl' with hl' | ⟨h2, hl'⟩
          · exact .inl (by omega)
          · exact .inr ⟨hs.empty h1 h2, by omega⟩
      · rcases h4 with h4 | ⟨h4, h5⟩
        · exact .inl (by omega)
        · exact .inr ⟨begins_mono hs.stop h4, by omega⟩
    · obtain ⟨hq1, hq2⟩ := hq.1 hQ
      refine ⟨fun k u e => ?_, fun hr => ?_⟩
      · obtain ⟨he, hk⟩ := hq2 k u e
        rw [hk]
        refine ⟨?_, ?_⟩
        · rcases hl with hl | ⟨h1, hl⟩
          · exact .inl hl
          · exact .inr ⟨hs.empty h1 he, hl⟩
        · have := hd2 he
          rcases hc with hc | ⟨hc, hc'⟩
          · exact .inl (by omega)
          · exact .inr ⟨begins_mono (hs.skip he) hc, by omega⟩
      · rcases hc with hc | ⟨_, hc⟩ <;> omega
  · -- the first one consumes nothing
    obtain ⟨hc, hd⟩ := hp.1 hP
    obtain ⟨he, hj⟩ := hd j t rfl
    have ho2 := ho2 he
    have hd3 := hd3 he
    obtain ⟨hf4, hf5⟩ := hf4 he
    by_cases hQ : Begins Q.first j.buf
    · refine ⟨fun hb => absurd (hf.mpr (.inr ⟨he, hj ▸ hQ⟩)) hb, fun _ => ?_⟩
      obtain ⟨hq1, hq2⟩ := hq.2 hQ
      rw [hj] at hq1 hq2
      refine ⟨fun k u e => ?_, fun hr => by have := hq2 hr; omega⟩
      obtain ⟨hl', h4⟩ := hq1 k u e
      refine ⟨hl'.imp_right fun h => ⟨hs.empty he h.1, h.2⟩, ?_⟩
      rcases h4 with h4 | ⟨h4, h5⟩
      · exact .inl (by omega)
      · exact .inr ⟨begins_mono hs.stop h4, by omega⟩
    · refine ⟨fun _ => ?_, fun hb => ?_⟩
      · obtain ⟨hq1, hq2⟩ := hq.1 hQ
        refine ⟨by omega, fun k u e => ?_⟩
        obtain ⟨he', hk⟩ := hq2 k u e
        exact ⟨hs.empty he he', hk.trans hj⟩
      · rcases hf.mp hb with h | ⟨_, h⟩
        · exact absurd h hP
        · exact absurd (hj ▸ h) hQ

/-- The first one fails. -/
theorem AsSaid.seq_fails {P Q L : Look I} (hs : Sequence a P Q L) {i : Input I} {w w' : σ} {r : ParseResult I T E}
    {r' : ParseResult I U V} (hp : AsSaid m a P i w r w') (hr : ∀ j t, r ≠ .data j t)
    (hr' : ∀ j t, r' ≠ .data j t) : AsSaid m a L i w r' w' := by
  obtain ⟨ho1, ho2⟩ := hs.out
  obtain ⟨hf1, hf2, hf3, hf4⟩ := hs.fail
  by_cases hP : Begins P.first i.buf
  · have := (hp.2 hP).2 hr
    refine ⟨fun _ => ⟨?_, fun j t e => absurd e (hr' j t)⟩,
      fun _ => ⟨fun j t e => absurd e (hr' j t), fun _ => by omega⟩⟩
    rename_i hb
    exact absurd ((begins_or hs.first).mpr (.inl hP)) hb
  · have := (hp.1 hP).1
    refine ⟨fun _ => ⟨by omega, fun j t e => absurd e (hr' j t)⟩,
      fun hb => ⟨fun j t e => absurd e (hr' j t), fun _ => ?_⟩⟩
    rcases (begins_or hs.first).mp hb with h | ⟨c, z, e, he, h⟩
    · exact absurd h hP
    · have := (hf4 he).2
      have hl : 1 ≤ i.buf.length := begins_length hb
      have := scale a hl
      simp only [Int.natCast_one, Int.mul_one] at this
      omega

theorem bind_inv {p : Parser σ I T E} {conv : E → V} {f : T → Parser σ I U V} {i : Input I} {w w' : σ}
    {r : ParseResult I U V} (h : Parser.bind conv p f i w = .ok (r, w')) :
    (∃ j t w1, p i w = .ok (.data j t, w1) ∧ f t j w1 = .ok (r, w')) ∨
    (∃ r0, p i w = .ok (r0, w') ∧ (∀ j t, r0 ≠ .data j t) ∧ ∀ j u, r ≠ .data j u) := by
  unfold Parser.bind at h
  rw [M.bind_apply] at h
  match hp : p i w, h with
  | .ok (.data j t, w1), h =>
    refine .inl ⟨j, t, w1, rfl, ?_⟩
    rw [Res.bind_ok] at h
    dsimp only at h
    rwa [ParseResult.bind_data] at h
  | .ok (.error b e, w1), h => cases h; exact .inr ⟨_, rfl, nofun, nofun⟩
  | .ok (.incomplete n, w1), h => cases h; exact .inr ⟨_, rfl, nofun, nofun⟩

theorem at_bind {P Q L : Look I} (hs : Sequence a P Q L) {p : Parser σ I T E} {conv : E → V}
    {f : T → Parser σ I U V} {i : Input I} (hp : At m a P i (p i))
    (hf : ∀ j t, (j.buf.length < i.buf.length ∨ (P.empty = true ∧ j.buf.length ≤ i.buf.length)) →
      At m a Q j (f t j)) : At m a L i (Parser.bind conv p f i) := by
  intro w r w' h
  rcases bind_inv h with ⟨j, t, w1, h1, h2⟩ | ⟨r0, h1, h2, h3⟩
  · have hw := hp w _ w1 h1
    refine AsSaid.seq hs hw (hf j t ?_ w1 r w' h2)
    by_cases hP : Begins P.first i.buf
    · exact ((hw.2 hP).1 j t rfl).1
    · obtain ⟨he, hj⟩ := (hw.1 hP).2 j t rfl
      exact .inr ⟨he, by rw [hj]; exact Nat.le_refl _⟩
  · exact AsSaid.seq_fails hs (hp w _ w' h1) h2 h3

/-- One or the other: the result is that of the first one, or it fails and the result is that of the second one,
or a failure. -/
theorem at_else {P Q L : Look I} (hs : Choice a P Q L) {p : Parser σ I V N} {q : Parser σ I T E} {i : Input I}
    {x : M σ (ParseResult I T E)} (hp : At m a P i (p i)) (hq : At m a Q i (q i))
    (hx : ∀ w r w', x w = .ok (r, w') →
      (∃ j t u, p i w = .ok (.data j t, w') ∧ r = .data j u) ∨
      (∃ r0 w1, p i w = .ok (r0, w1) ∧ (∀ j t, r0 ≠ .data j t) ∧ q i w1 = .ok (r, w')) ∨
      (∃ r0, p i w = .ok (r0, w') ∧ (∀ j t, r0 ≠ .data j t) ∧ ∀ j t, r ≠ .data j t)) : At m a L i x := by
  intro w r w' h
  obtain ⟨hd1, hd2⟩ := hs.done
  obtain ⟨hf1, hf2⟩ := hs.fail
  have hf := begins_or (x := i.buf) hs.first
  have hex : Begins Q.first i.buf → ∃ x, Q.first x := fun ⟨c, _, _, h⟩ => ⟨c, h⟩
  have ho := hs.out
  -- the first one fails
  have hfail : ∀ r0 w1, p i w = .ok (r0, w1) → (∀ j t, r0 ≠ .data j t) → q i w1 = .ok (r, w') →
      AsSaid m a L i w r w' := by
    intro r0 w1 h1 h2 h3
    have hw := hp w r0 w1 h1
    have hv := hq w1 r w' h3
    by_cases hP : Begins P.first i.buf
    · have hc := (hw.2 hP).2 h2
      obtain ⟨hq1, hq2⟩ := hv.1 (begins_not hs.apart hP)
      refine ⟨fun hb => absurd (hf.mpr (.inl hP)) hb, fun _ => ⟨fun j t e => ?_, fun _ => by omega⟩⟩
      obtain ⟨he, hj⟩ := hq2 j t e
      rw [hj]
      exact ⟨.inr ⟨hs.empty (.inr he), Nat.le_refl _⟩, .inr ⟨begins_mono (hs.back he) hP, by omega⟩⟩
    · have hc := (hw.1 hP).1
      refine ⟨fun hb => ?_, fun hb => ?_⟩
      · obtain ⟨hq1, hq2⟩ := hv.1 (fun h => hb (hf.mpr (.inr h)))
        exact ⟨by omega, fun j t e => ⟨hs.empty (.inr (hq2 j t e).1), (hq2 j t e).2⟩⟩
      · have hQ := (hf.mp hb).resolve_left hP
        obtain ⟨hd2, hd3⟩ := hd2 (hex hQ)
        obtain ⟨hf2, hf3⟩ := hf2 (hex hQ)
        obtain ⟨hq1, hq2⟩ := hv.2 hQ
        refine ⟨fun j t e => ?_, fun hr => by have := hq2 hr; omega⟩
        obtain ⟨h4, h5⟩ := hq1 j t e
        refine ⟨h4.imp_right fun h => ⟨hs.empty (.inr h.1), h.2⟩, ?_⟩
        rcases h5 with h5 | ⟨h5, h6⟩
        · exact .inl (by omega)
        · exact .inr ⟨begins_mono (fun x h => hs.stop x (.inr h)) h5, by omega⟩
  -- and its failure is the result
  have hlast : ∀ r0, p i w = .ok (r0, w') → (∀ j t, r0 ≠ .data j t) → (∀ j t, r ≠ .data j t) →
      AsSaid m a L i w r w' := by
    intro r0 h1 h2 h3
    have hw := hp w r0 w' h1
    refine ⟨fun hb => ?_, fun hb => ⟨fun j t e => absurd e (h3 j t), fun _ => ?_⟩⟩
    · have := (hw.1 (fun h => hb (hf.mpr (.inl h)))).1
      exact ⟨by omega, fun j t e => absurd e (h3 j t)⟩
    · by_cases hP : Begins P.first i.buf
      · have := (hw.2 hP).2 h2
        omega
      · have := (hw.1 hP).1
        have := hf2 (hex ((hf.mp hb).resolve_left hP))
        have := scale a (begins_length hb)
        simp only [Int.natCast_one, Int.mul_one] at this
        omega
  rcases hx w r w' h with ⟨j, t, u, h1, rfl⟩ | ⟨r0, w1, h1, h2, h3⟩ | ⟨r0, h1, h2, h3⟩
  · have hw := hp w _ w' h1
    by_cases hP : Begins P.first i.buf
    · obtain ⟨hp1, hp2⟩ := (hw.2 hP).1 j t rfl
      refine ⟨fun hb => absurd (hf.mpr (.inl hP)) hb, fun _ => ⟨fun k u e => ?_, fun hn => absurd rfl (hn j u)⟩⟩
      cases e
      refine ⟨hp1.imp_right fun h => ⟨hs.empty (.inl h.1), h.2⟩, ?_⟩
      rcases hp2 with hp2 | ⟨h5, h6⟩
      · exact .inl (by omega)
      · exact .inr ⟨begins_mono (fun x h => hs.stop x (.inl h)) h5, by omega⟩
    · obtain ⟨hp1, hp2⟩ := hw.1 hP
      obtain ⟨he, hj⟩ := hp2 j t rfl
      refine ⟨fun _ => ⟨by omega, fun k u e => ?_⟩, fun hb => ⟨fun k u e => ?_, fun hn => absurd rfl (hn j u)⟩⟩
      · cases e
        exact ⟨hs.empty (.inl he), hj⟩
      · cases e
        rw [hj]
        have := (hd2 (hex ((hf.mp hb).resolve_left hP))).2 he
        exact ⟨.inr ⟨hs.empty (.inl he), Nat.le_refl _⟩, .inl (by omega)⟩
  · exact hfail r0 w1 h1 h2 h3
  · exact hlast r0 h1 h2 h3

/-- One or the other. -/
theorem at_or {P Q L : Look I} (hs : Choice a P Q L) {p q : Parser σ I T E} {i : Input I} (hp : At m a P i (p i))
    (hq : At m a Q i (q i)) : At m a L i (Comb.or p q i) := by
  refine at_else hs hp hq fun w r w' h => ?_
  unfold Comb.or at h
  rw [M.bind_apply] at h
  match hr : p i w, h with
  | .ok (.data j t, w1), h =>
    have h2 : (.data j t, w1) = (r, w') := Res.ok.inj h
    obtain ⟨rfl, rfl⟩ := Prod.mk.inj h2
    exact .inl ⟨j, t, t, rfl, rfl⟩
  | .ok (.error b e, w1), h => exact .inr (.inl ⟨_, w1, rfl, nofun, h⟩)
  | .ok (.incomplete n, w1), h =>
    rw [Res.bind_ok] at h
    dsimp only at h
    split at h
    · exact .inr (.inl ⟨_, w1, rfl, nofun, h⟩)
    · cases h
      exact .inr (.inr ⟨_, rfl, nofun, nofun⟩)

theorem at_ret (t : T) (i : Input I) : At m a nothing i (Parser.ret (σ := σ) (E := E) t i) := by
  intro w r w' h
  cases h
  refine ⟨fun _ => ⟨Nat.le_refl _, fun j u e => by cases e; exact ⟨rfl, rfl⟩⟩, ?_⟩
  rintro ⟨_, _, _, h⟩
  exact h.elim

theorem at_map {L : Look I} {p : Parser σ I T E} {i : Input I} (hp : At m a L i (p i)) (f : T → U) :
    At m a L i (Parser.map p f i) := by
  intro w r w' h
  unfold Parser.map at h
  rw [M.bind_apply] at h
  match hr : p i w, h with
  | .ok (.data j t, w1), h =>
    cases h
    refine AsSaid.congr (hp w _ _ hr) (fun j u e => ?_) (fun hn => absurd rfl (hn _ _))
    cases e
    exact ⟨t, rfl⟩
  | .ok (.error b e, w1), h => cases h; exact AsSaid.congr (hp w _ _ hr) nofun fun _ => nofun
  | .ok (.incomplete n, w1), h => cases h; exact AsSaid.congr (hp w _ _ hr) nofun fun _ => nofun

/-- The least which is said of a repetition. -/
def rep (P : Look I) : Look I :=
  ⟨P.first, fun x => P.stop x ∨ P.first x, true, P.out, P.done + P.out, max (P.fail + P.out) (P.done + P.out)⟩

theorem rep_less {P L : Look I} (h : Repetition P L) : Less (rep P) L where
  first := h.first
  stop := h.stop
  empty _ := h.empty
  out := h.out
  done := h.done
  fail := by
    have := h.fail
    show max (P.fail + P.out) (P.done + P.out) ≤ L.fail
    omega

/-- An item, and the others. -/
def repNext (P : Look I) : Look I := { rep P with empty := false }

theorem rep_sequence {P L : Look I} (h : Repetition P L) : Sequence a P (rep P) (repNext P) where
  apart := h.apart
  first x := by simp [repNext, rep, h.consumes]
  stop x h := h
  skip _ x h := .inl h
  empty he := by rw [h.consumes] at he; cases he
  out := ⟨Nat.le_refl _, fun he => by rw [h.consumes] at he; cases he⟩
  done := by
    have := h.paid
    refine ⟨?_, fun _ => ?_, fun he => by rw [h.consumes] at he; cases he⟩ <;> show _ ≤ P.done + P.out
    · show P.done + (P.done + P.out) ≤ _
      omega
    · exact Int.le_refl _
  fail := by
    have := h.paid
    refine ⟨?_, ?_, ?_, fun he => by rw [h.consumes] at he; cases he⟩ <;>
      show _ ≤ max (P.fail + P.out) (P.done + P.out) <;> dsimp only [rep] <;> omega

theorem rep_choice (P : Look I) : Choice a (repNext P) nothing (rep P) where
  apart _ _ := id
  first x := by simp [repNext, rep, nothing, leaf]
  stop x h := h.elim id False.elim
  back _ x h := .inr h
  empty _ := rfl
  out := Nat.le_refl _
  done := ⟨Int.le_refl _, fun ⟨_, h⟩ => h.elim⟩
  fail := ⟨by show _ + ((0 : Nat) : Int) ≤ _; simp [repNext], fun ⟨_, h⟩ => h.elim⟩

theorem At.less {P L : Look I} (hl : Less P L) {i : Input I} {x : M σ (ParseResult I T E)} (h : At m a P i x) :
    At m a L i x := fun w r w' e => AsSaid.less hl (h w r w' e)

theorem at_many {P L : Look I} (h : Repetition P L) {p : Parser σ I U E} (hk : KeepsMode p)
    (hp : ∀ i, At m a P i (p i)) (i : Input I) : At m a L i (Comb.many (Collect.vec U) p i) := by
  refine At.less (rep_less h) ?_
  generalize hn : i.buf.length = n
  induction n using Nat.strongRecOn generalizing i with
  | ind n ih =>
    subst hn
    rw [Props.C71_many p hk]
    refine at_or (rep_choice P) (at_bind (rep_sequence h) (hp i) fun j t hj => at_map ?_ _) (at_ret _ i)
    rcases hj with hj | ⟨he, _⟩
    · exact ih _ hj j rfl
    · rw [h.consumes] at he; cases he

theorem at_skipMany {P L : Look I} (h : Repetition P L) {p : Parser σ I U E} (hk : KeepsMode p)
    (hp : ∀ i, At m a P i (p i)) (i : Input I) : At m a L i (Comb.skipMany p i) := by
  refine At.less (rep_less h) ?_
  generalize hn : i.buf.length = n
  induction n using Nat.strongRecOn generalizing i with
  | ind n ih =>
    subst hn
    rw [(Props.C71_skip_many p hk).1]
    refine at_or (rep_choice P) (at_bind (f := fun _ => Comb.skipMany p) (rep_sequence h) (hp i) fun j t hj => ?_)
      (at_ret _ i)
    rcases hj with hj | ⟨he, _⟩
    · exact ih _ hj j rfl
    · rw [h.consumes] at he; cases he

theorem at_manyTill {P D S L : Look I} (h0 : P.empty = false) (hs : Sequence a P L S) (hc : Choice a D S L)
    {p : Parser σ I U E} {end_ : Parser σ I V N} (hp : ∀ i, At m a P i (p i)) (he : ∀ i, At m a D i (end_ i))
    (i : Input I) : At m a L i (Comb.manyTill (Collect.vec U) p end_ i) := by
  generalize hn : i.buf.length = n
  induction n using Nat.strongRecOn generalizing i with
  | ind n ih =>
    subst hn
    refine at_else (q := Parser.bind id p fun v => Parser.map (Comb.manyTill (Collect.vec U) p end_) (v :: ·)) hc
      (he i) (at_bind hs (hp i) fun j t hj => at_map ?_ _) fun w r w' h => ?_
    · rcases hj with hj | ⟨he, _⟩
      · exact ih _ hj j rfl
      · rw [h0] at he; cases he
    · rw [Unroll.till_bind] at h
      match hr : end_ i w, h with
      | .ok (.data j t, w1), h => cases h; exact .inl ⟨_, t, _, rfl, rfl⟩
      | .ok (.error b e, w1), h => exact .inr (.inl ⟨_, w1, rfl, nofun, h⟩)
      | .ok (.incomplete n, w1), h => exact .inr (.inl ⟨_, w1, rfl, nofun, h⟩)

/-! ### Parsers of items -/

/-- One item, or a failure. -/
theorem at_item {A : I → Prop} {k : Nat} {i : Input I} {x : M σ (ParseResult I T E)}
    (h : ∀ w r w', x w = .ok (r, w') → m w' ≤ m w + k ∧
      ∀ j t, r = .data j t → ∃ c, i.buf = c :: j.buf ∧ A c) :
    At m a (leaf A false k (k - a) (k - a)) i x := by
  intro w r w' e
  obtain ⟨h1, h2⟩ := h w r w' e
  refine ⟨fun hb => ⟨h1, fun j t e => ?_⟩, fun hb => ⟨fun j t e => ?_, fun _ => ?_⟩⟩
  · obtain ⟨c, hc, hA⟩ := h2 j t e
    exact absurd ⟨c, _, hc, hA⟩ hb
  · obtain ⟨c, hc, hA⟩ := h2 j t e
    have hl : j.buf.length < i.buf.length := by rw [hc]; simp
    refine ⟨.inl hl, .inl ?_⟩
    have := scale_lt a hl
    show _ ≤ _ + ((k : Int) - a)
    omega
  · have := scale a (begins_length hb)
    simp only [Int.natCast_one, Int.mul_one] at this
    show _ ≤ _ + ((k : Int) - a)
    omega

theorem at_head {g : I → M σ Bool} {A : I → Prop} (hg : ∀ c, Counted m (g c))
    (hA : ∀ c w w', g c w = .ok (true, w') → A c) (i : Input I) (e : Error I) :
    At m a (leaf A false 1 (1 - a) (1 - a)) i (match i.buf with
      | [] => pure (i.incomplete 1)
      | c :: _ => do
        if ← g c then do
          let r ← sliceFrom i.buf 1
          pure ((i.replace r).ret c)
        else pure (i.err e) : M σ (ParseResult I I (Error I))) := by
  refine at_item (k := 1) fun w r w' h => ⟨Work.adds_head hg i e w r w' h, fun j t hr => ?_⟩
  subst hr
  obtain ⟨md, b⟩ := i
  match b, h with
  | [], h => cases h
  | c :: z, h =>
    dsimp only at h
    rw [M.bind_apply] at h
    match hc : g c w, h with
    | .ok (true, w1), h => cases h; exact ⟨_, rfl, hA _ w _ hc⟩
    | .ok (false, w1), h => cases h

/-- How often `position` asks, and where it stops. -/
theorem position_asks {f : I → M σ Bool} {A : I → Prop} (hf : ∀ c, Counted m (f c))
    (hA : ∀ c w w', f c w = .ok (true, w') → A c) (b : List I) : ∀ (w : σ) (n : Option Nat) (w' : σ),
    Closures.position (fun c => do let a ← f c; pure (a == false)) b w = .ok (n, w') →
      (∀ k, n = some k → k < b.length ∧ m w' ≤ m w + k + 1 ∧ (1 ≤ k → Begins A b)) ∧
      (n = none → m w' ≤ m w + b.length ∧ (b ≠ [] → Begins A b)) := by
  induction b with
  | nil =>
    intro w n w' h
    cases h
    exact ⟨nofun, fun _ => ⟨by simp, fun h => absurd rfl h⟩⟩
  | cons c b ih =>
    intro w n w' h
    unfold Closures.position at h
    rw [M.bind_apply, M.bind_apply] at h
    match hc : f c w, h with
    | .ok (true, w1), h =>
      have hb : Begins A (c :: b) := ⟨c, b, rfl, hA c w w1 hc⟩
      have h1 := hf c w _ w1 hc
      replace h : ((Closures.position (fun c => do let a ← f c; pure (a == false)) b) >>=
        fun r => pure (r.map (· + 1))) w1 = .ok (n, w') := h
      rw [M.bind_apply] at h
      match hr : Closures.position (fun c => do let a ← f c; pure (a == false)) b w1, h with
      | .ok (some k, w2), h =>
        cases h
        obtain ⟨h2, h3, _⟩ := (ih w1 _ _ hr).1 k rfl
        refine ⟨fun k' e => ?_, nofun⟩
        cases e
        exact ⟨by simp; omega, by show m w2 ≤ m w + (k + 1) + 1; omega, fun _ => hb⟩
      | .ok (none, w2), h =>
        cases h
        obtain ⟨h2, _⟩ := (ih w1 _ _ hr).2 rfl
        exact ⟨nofun, fun _ => ⟨by simp; omega, fun _ => hb⟩⟩
    | .ok (false, w1), h =>
      cases h
      have h1 := hf c w _ _ hc
      refine ⟨fun k e => ?_, nofun⟩
      cases e
      exact ⟨by simp, by omega, fun h => absurd h (by omega)⟩

/-- A prefix, with at most one call more than it has items. -/
theorem at_prefix {A : I → Prop} {e : Bool} {i : Input I} {x : M σ (ParseResult I T E)} (ha : 1 ≤ a)
    (h : ∀ w r w', x w = .ok (r, w') →
      (∀ j t, r = .data j t → ∃ k, k + j.buf.length = i.buf.length ∧ m w' ≤ m w + k + 1 ∧
        (k = 0 → e = true ∧ j.buf = i.buf) ∧ (1 ≤ k → Begins A i.buf)) ∧
      ((∀ j t, r ≠ .data j t) → m w' ≤ m w + i.buf.length) ∧
      (¬ Begins A i.buf → m w' ≤ m w + 1)) :
    At m a (leaf A e 1 1 0) i x := by
  intro w r w' hx
  obtain ⟨h1, h2, h3⟩ := h w r w' hx
  refine ⟨fun hb => ⟨h3 hb, fun j t hr => ?_⟩, fun hb => ⟨fun j t hr => ?_, fun hr => ?_⟩⟩
  · obtain ⟨k, hk, _, h4, h5⟩ := h1 j t hr
    refine h4 ?_
    by_cases hk0 : k = 0
    · exact hk0
    · exact absurd (h5 (by omega)) hb
  · obtain ⟨k, hk, h6, h4, h5⟩ := h1 j t hr
    refine ⟨?_, .inl ?_⟩
    · by_cases hk0 : k = 0
      · exact .inr ⟨(h4 hk0).1, by omega⟩
      · exact .inl (by omega)
    · have e1 : (a : Int) * i.buf.length = a * k + a * j.buf.length := by
        rw [← hk, Int.natCast_add, Int.mul_add]
      have e2 : (k : Int) ≤ a * k := by
        have := Nat.mul_le_mul_right k ha
        rw [Nat.one_mul] at this
        exact_mod_cast this
      show _ ≤ _ + (1 : Int)
      omega
  · have := h2 hr
    have e2 : (i.buf.length : Int) ≤ a * i.buf.length := by
      have := Nat.mul_le_mul_right i.buf.length ha
      rw [Nat.one_mul] at this
      exact_mod_cast this
    show _ ≤ _ + (0 : Int)
    omega

theorem at_takeWhileM {f : I → M σ Bool} {A : I → Prop} (hf : ∀ c, Counted m (f c))
    (hA : ∀ c w w', f c w = .ok (true, w') → A c) (ha : 1 ≤ a) (i : Input I) :
    At m a (leaf A true 1 1 0) i (Closures.takeWhile f i) := by
  refine at_prefix ha fun w r w' h => ?_
  obtain ⟨md, b⟩ := i
  unfold Closures.takeWhile at h
  dsimp only at h ⊢
  rw [M.bind_apply] at h
  match hp : Closures.position (fun c => do let a ← f c; pure (a == false)) b w, h with
  | .ok (some k, w1), h =>
    obtain ⟨h1, h2, h3⟩ := (position_asks hf hA b w _ w1 hp).1 k rfl
    rw [Res.bind_ok] at h
    dsimp only at h
    rw [M.bind_ok (sliceFrom_ok (Nat.le_of_lt h1) w1), M.bind_ok (sliceTo_ok (Nat.le_of_lt h1) w1)] at h
    cases h
    refine ⟨fun j t e => ?_, fun hn => absurd rfl (hn _ _), fun hb => ?_⟩
    · cases e
      refine ⟨k, by simp [Input.replace]; omega, h2, fun hk => ⟨rfl, by simp [Input.replace, hk]⟩, h3⟩
    · by_cases hk : k = 0
      · omega
      · exact absurd (h3 (by omega)) hb
  | .ok (none, w1), h =>
    obtain ⟨h1, h2⟩ := (position_asks hf hA b w _ w1 hp).2 rfl
    rw [Res.bind_ok] at h
    dsimp only at h
    have hb0 : ¬ Begins A b → m w1 ≤ m w + 1 := by
      intro hb
      by_cases hb' : b = []
      · subst hb'; simp at h1; omega
      · exact absurd (h2 hb') hb
    split at h
    · rw [M.bind_ok (sliceTo_ok (Nat.zero_le _) w1)] at h
      cases h
      refine ⟨fun j t e => ?_, fun hn => absurd rfl (hn _ _), hb0⟩
      cases e
      refine ⟨b.length, by simp [Input.replace], by omega, fun hk => ⟨rfl, ?_⟩, fun hk => h2 ?_⟩
      · simp [Input.replace, List.length_eq_zero_iff.mp hk]
      · rintro rfl
        simp at hk
    · cases h
      exact ⟨nofun, fun _ => h1, hb0⟩

theorem at_takeWhile1M {f : I → M σ Bool} {A : I → Prop} (hf : ∀ c, Counted m (f c))
    (hA : ∀ c w w', f c w = .ok (true, w') → A c) (ha : 1 ≤ a) (v : Bool) (i : Input I) :
    At m a (leaf A false 1 1 0) i (Closures.takeWhile1 v f i) := by
  refine at_prefix ha fun w r w' h => ?_
  obtain ⟨md, b⟩ := i
  unfold Closures.takeWhile1 at h
  dsimp only at h ⊢
  rw [M.bind_apply] at h
  match hp : Closures.position (fun c => do let a ← f c; pure (a == false)) b w, h with
  | .ok (some 0, w1), h =>
    obtain ⟨h1, h2, h3⟩ := (position_asks hf hA b w _ w1 hp).1 0 rfl
    cases h
    exact ⟨nofun, fun _ => by show m w1 ≤ _; omega, fun _ => by show m w1 ≤ _; omega⟩
  | .ok (some (k + 1), w1), h =>
    obtain ⟨h1, h2, h3⟩ := (position_asks hf hA b w _ w1 hp).1 (k + 1) rfl
    rw [Res.bind_ok] at h
    change (sliceFrom b (k + 1) >>= fun r => sliceTo b (k + 1) >>= fun t =>
      pure ((Input.replace ⟨md, b⟩ r).ret t)) w1 = _ at h
    rw [M.bind_ok (sliceFrom_ok (Nat.le_of_lt h1) w1), M.bind_ok (sliceTo_ok (Nat.le_of_lt h1) w1)] at h
    cases h
    refine ⟨fun j t e => ?_, fun hn => absurd rfl (hn _ _), fun hb => absurd (h3 (by omega)) hb⟩
    cases e
    exact ⟨k + 1, by simp [Input.replace]; omega, h2, fun hk => absurd hk (by omega), h3⟩
  | .ok (none, w1), h =>
    obtain ⟨h1, h2⟩ := (position_asks hf hA b w _ w1 hp).2 rfl
    rw [Res.bind_ok] at h
    dsimp only at h
    have hb0 : ¬ Begins A b → m w1 ≤ m w + 1 := by
      intro hb
      by_cases hb' : b = []
      · subst hb'; simp at h1; omega
      · exact absurd (h2 hb') hb
    split at h
    · rename_i hl
      rw [M.bind_ok (sliceTo_ok (Nat.zero_le _) w1)] at h
      cases h
      refine ⟨fun j t e => ?_, fun hn => absurd rfl (hn _ _), hb0⟩
      cases e
      have hl : 0 < b.length := by simp at hl; exact hl.1
      refine ⟨b.length, by simp [Input.replace], by omega, fun hk => absurd hk (by omega), fun hk => h2 ?_⟩
      rintro rfl
      simp at hk
    · cases h
      exact ⟨nofun, fun _ => h1, hb0⟩

/-- Parsers which call nothing, and consume if they may begin. -/
theorem at_silent {A : I → Prop} {e : Bool} {i : Input I} {x : M σ (ParseResult I T E)}
    (h : ∀ w r w', x w = .ok (r, w') → w' = w ∧ ∀ j t, r = .data j t →
      (j.buf.length < i.buf.length ∧ Begins A i.buf) ∨ (e = true ∧ j.buf = i.buf ∧ ¬ Begins A i.buf)) :
    At m a (leaf A e 0 (-a) (-a)) i x := by
  intro w r w' hx
  obtain ⟨rfl, h1⟩ := h w r w' hx
  refine ⟨fun hb => ⟨Nat.le_refl _, fun j t hr => ?_⟩, fun hb => ⟨fun j t hr => ?_, fun _ => ?_⟩⟩
  · rcases h1 j t hr with ⟨_, h⟩ | ⟨h1, h2, _⟩
    · exact absurd h hb
    · exact ⟨h1, h2⟩
  · rcases h1 j t hr with ⟨h1, _⟩ | ⟨_, _, h⟩
    · refine ⟨.inl h1, .inl ?_⟩
      have := scale_lt a h1
      show _ ≤ _ + (-a : Int)
      omega
    · exact absurd hb h
  · have := scale a (begins_length hb)
    simp only [Int.natCast_one, Int.mul_one] at this
    show _ ≤ _ + (-a : Int)
    omega

theorem begins_cons {A : I → Prop} {c : I} {z : List I} : Begins A (c :: z) ↔ A c :=
  ⟨fun ⟨_, _, e, h⟩ => by cases e; exact h, fun h => ⟨c, z, rfl, h⟩⟩

theorem begins_nil {A : I → Prop} : ¬ Begins A [] := fun ⟨_, _, e, _⟩ => nomatch e

theorem dropWhile_begins {f : I → Bool} : ∀ {b : List I}, ¬ Begins (fun c => f c = true) b → b.dropWhile f = b
  | [], _ => rfl
  | c :: z, h => by
    have : f c ≠ true := fun e => h (begins_cons.mpr e)
    simp [List.dropWhile, this]

theorem dropWhile_lt {f : I → Bool} : ∀ {b : List I}, Begins (fun c => f c = true) b →
    (b.dropWhile f).length < b.length
  | [], h => absurd h begins_nil
  | c :: z, h => by
    have hc : f c = true := (begins_cons (A := fun c => f c = true)).mp h
    have := (List.dropWhile_sublist (p := f) (l := z)).length_le
    simp only [List.dropWhile, hc, List.length_cons]
    omega

theorem keeps {L : Look I} {p : Parser σ I T E} (h : Spec.Predictive m a L p) : KeepsMode p :=
  Props.C71_keeps_mode (built h)

/-- What is said according to the text holds. -/
theorem holds {L : Look I} {p : Parser σ I T E} (h : Spec.Predictive m a L p) : ∀ i, At m a L i (p i) := by
  induction h with
  | known _ hk => exact fun i w r w' => hk i w r w'
  | weaken hl _ ih => exact fun i => At.less hl (ih i)
  | ret t => exact at_ret t
  | err e =>
    intro i w r w' h
    cases h
    refine ⟨fun _ => ⟨Nat.le_refl _, nofun⟩, ?_⟩
    rintro ⟨_, _, _, h⟩
    exact h.elim
  | bind hs _ _ ihp ihf => exact fun i => at_bind hs (ihp i) fun j t _ => ihf t j
  | andThen hs _ _ ihp ihq => exact fun i => at_bind (f := fun _ => _) hs (ihp i) fun j t _ => ihq j
  | map f _ ih => exact fun i => at_map (ih i) f
  | mapErr f _ ih =>
    intro i w r w' h
    unfold Parser.mapErr at h
    rw [M.bind_apply] at h
    rename_i p _
    match hr : p i w, h with
    | .ok (.data j t, w1), h =>
      cases h
      refine AsSaid.congr (ih i w _ _ hr) (fun j u e => ?_) (fun hn => absurd rfl (hn _ _))
      cases e
      exact ⟨t, rfl⟩
    | .ok (.error b e, w1), h => cases h; exact AsSaid.congr (ih i w _ _ hr) nofun fun _ => nofun
    | .ok (.incomplete n, w1), h => cases h; exact AsSaid.congr (ih i w _ _ hr) nofun fun _ => nofun
  | inspect f hf _ ih =>
    intro i w r w' h
    unfold Parser.inspect at h
    rw [M.bind_apply] at h
    rename_i p _
    match hr : p i w, h with
    | .ok (.data j t, w1), h =>
      rw [Res.bind_ok] at h
      change (f t >>= fun _ => pure (ParseResult.data j t)) w1 = _ at h
      rw [M.bind_apply] at h
      match ht : f t w1, h with
      | .ok (x, w2), h =>
        have e := Prod.mk.inj (Res.ok.inj h)
        obtain ⟨rfl, rfl⟩ := e
        have := hf t w1 x w2 ht
        exact AsSaid.call (ih i w _ _ hr) (by show m w + m w2 ≤ m w + m w1 + 1; omega)
    | .ok (.error b e, w1), h => cases h; exact AsSaid.call (ih i w _ _ hr) (Nat.le_succ _)
    | .ok (.incomplete n, w1), h => cases h; exact AsSaid.call (ih i w _ _ hr) (Nat.le_succ _)
  | effect hg _ ih =>
    intro i w r w' h
    unfold Parser.effect at h
    rw [M.bind_apply] at h
    rename_i g _ _
    match hr : g w, h with
    | .ok (x, w1), h =>
      have := hg w x w1 hr
      exact AsSaid.call (ih x i w1 r w' h) (by omega)
  | any =>
    intro i
    refine at_silent fun w r w' h => ?_
    rw [Parsers.any_eq] at h
    cases h
    obtain ⟨md, b⟩ := i
    refine ⟨rfl, fun j t e => ?_⟩
    cases b with
    | nil => cases e
    | cons c z => cases e; exact .inl ⟨by simp, begins_cons.mpr trivial⟩
  | satisfy v f =>
    intro i
    refine at_silent fun w r w' h => ?_
    rw [Parsers.satisfy_eq] at h
    cases h
    obtain ⟨md, b⟩ := i
    refine ⟨rfl, fun j t e => ?_⟩
    cases b with
    | nil => cases e
    | cons c z =>
      dsimp only at e
      split at e
      · cases e
        exact .inl ⟨by simp, begins_cons.mpr (by assumption)⟩
      · cases e
  | token v t =>
    intro i
    refine at_silent fun w r w' h => ?_
    rw [Parsers.token_eq] at h
    cases h
    obtain ⟨md, b⟩ := i
    refine ⟨rfl, fun j t e => ?_⟩
    cases b with
    | nil => cases e
    | cons c z =>
      dsimp only at e
      split at e
      · cases e
        exact .inl ⟨by simp, begins_cons.mpr (Eq.symm (by assumption))⟩
      · cases e
  | notToken v t =>
    intro i
    refine at_silent fun w r w' h => ?_
    rw [Parsers.notToken_eq] at h
    cases h
    obtain ⟨md, b⟩ := i
    refine ⟨rfl, fun j t e => ?_⟩
    cases b with
    | nil => cases e
    | cons c z =>
      dsimp only at e
      split at e
      · cases e
      · rename_i hne
        cases e
        exact .inl ⟨by simp, begins_cons.mpr fun h => hne h.symm⟩
  | takeWhile f =>
    intro i
    refine at_silent fun w r w' h => ?_
    rw [Parsers.takeWhile_eq] at h
    cases h
    refine ⟨rfl, fun j t e => ?_⟩
    split at e
    · cases e
    · cases e
      by_cases hb : Begins (fun c => f c = true) i.buf
      · exact .inl ⟨dropWhile_lt hb, hb⟩
      · exact .inr ⟨rfl, dropWhile_begins hb, hb⟩
  | takeWhile1 v f =>
    intro i
    refine at_silent fun w r w' h => ?_
    rw [Parsers.takeWhile1_eq] at h
    cases h
    obtain ⟨md, b⟩ := i
    refine ⟨rfl, fun j t e => ?_⟩
    cases b with
    | nil => cases e
    | cons c z =>
      dsimp only at e
      split at e
      · cases e
      · rename_i hc
        have hb : Begins (fun c => f c = true) (c :: z) := begins_cons.mpr (by simpa using hc)
        split at e
        · cases e
        · cases e
          exact .inl ⟨dropWhile_lt hb, hb⟩
  | eof v =>
    intro i w r w' h
    rw [Parsers.eof_eq] at h
    cases h
    refine ⟨fun _ => ⟨Nat.le_refl _, fun j t e => ?_⟩, ?_⟩
    · split at e <;> cases e
      exact ⟨rfl, rfl⟩
    · rintro ⟨_, _, _, h⟩
      exact h.elim
  | satisfyM v f A hf hA => exact fun i => at_head hf hA i _
  | tokenM eq v t A hf hA => exact fun i => at_head hf hA i _
  | takeWhileM f A hf hA ha => exact fun i => at_takeWhileM hf hA ha i
  | takeWhile1M v f A hf hA ha => exact fun i => at_takeWhile1M hf hA ha v i
  | or hs _ _ ihp ihq => exact fun i => at_or hs (ihp i) (ihq i)
  | option t hs _ ih => exact fun i => by rw [Props.C20_option_is_or]; exact at_or hs (ih i) (at_ret t i)
  | many hr hp ih => exact at_many hr (keeps hp) ih
  | many1 hr hs hp ih =>
    intro i
    rw [Props.C71_many1]
    exact at_bind hs (ih i) fun j t _ => at_map (at_many hr (keeps hp) ih j) _
  | skipMany hr hp ih => exact at_skipMany hr (keeps hp) ih
  | skipMany1 hr hs hp ih =>
    intro i
    rw [(Props.C71_skip_many _ (keeps hp)).2]
    exact at_bind (f := fun _ => _) hs (ih i) fun j t _ => at_skipMany hr (keeps hp) ih j
  | sepBy1 conv hq hr hs hp hsep ihp ihs =>
    intro i
    rw [Props.C71_sep_by1]
    exact at_bind hs (ihp i) fun j t _ => at_map (at_many hr
      (Props.C71_keeps_mode (.andThen (built hsep) (built hp)))
      (fun i => at_bind (f := fun _ => _) hq (ihs i) fun j _ _ => ihp j) j) _
  | sepBy conv hq hr hs hc hp hsep ihp ihs =>
    intro i
    rw [Props.C71_sep_by conv _ _ (keeps hp) (keeps hsep), Props.C71_sep_by1]
    exact at_or hc (at_bind hs (ihp i) fun j t _ => at_map (at_many hr
      (Props.C71_keeps_mode (.andThen (built hsep) (built hp)))
      (fun i => at_bind (f := fun _ => _) hq (ihs i) fun j _ _ => ihp j) j) _) (at_ret _ i)
  | manyTill h0 hs hc _ _ ihp ihe => exact at_manyTill h0 hs hc ihp ihe
  | matchedBy _ ih =>
    intro i w r w' h
    unfold Comb.matchedBy at h
    rw [M.bind_apply] at h
    rename_i p _
    match hr : p i w, h with
    | .ok (.data j t, w1), h =>
      rw [Res.bind_ok] at h
      dsimp only at h
      rw [M.bind_apply] at h
      match hu : M.lift (usub i.buf.length j.buf.length) w1, h with
      | .ok (d, w2), h =>
        have e2 : w2 = w1 := by
          revert hu
          cases usub i.buf.length j.buf.length <;> intro hu <;> cases hu
          rfl
        subst e2
        rw [hu, Res.bind_ok, M.bind_apply] at h
        dsimp only at h
        match hv : sliceTo i.buf d w2, h with
        | .ok (z, w3), h =>
          have e3 : w3 = w2 := by
            unfold sliceTo at hv
            split at hv <;> cases hv
            rfl
          subst e3
          rw [hv] at h
          cases h
          refine AsSaid.congr (ih i w _ _ hr) (fun j u e => ?_) (fun hn => absurd rfl (hn _ _))
          cases e
          exact ⟨t, rfl⟩
    | .ok (.error b e, w1), h => cases h; exact AsSaid.congr (ih i w _ _ hr) nofun fun _ => nofun
    | .ok (.incomplete n, w1), h => cases h; exact AsSaid.congr (ih i w _ _ hr) nofun fun _ => nofun

end Predictive
end Chomp
