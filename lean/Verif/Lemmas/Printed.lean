import Verif.Spec.Printed
import Verif.Props.Ascii
import Verif.Props.Choice
import Verif.Props.Monad
import Verif.Props.Parsers
import Verif.Props.Repeat
import Verif.Props.SepBy
import Verif.Props.Till

/-
Steps for reading back what was written.
-/

namespace Chomp

open Spec Props

variable {σ I : Type}

theorem bind_data {p : Parser σ I T E} {i j : Input I} {w w' : σ} {t : T} (h : p i w = .ok (.data j t, w'))
    (conv : E → V) (f : T → Parser σ I U V) : Parser.bind conv p f i w = f t j w' := by
  unfold Parser.bind
  rw [M.bind_apply, h, Res.bind_ok]
  show (f t j >>= fun r => r.mapErr fun e => pure e) w' = _
  rw [M.bind_apply]
  cases hq : f t j w' with
  | ok x => obtain ⟨r, w1⟩ := x; cases r <;> rfl
  | _ => rfl

theorem bind_error {p : Parser σ I T E} {i : Input I} {w w' : σ} {b : List I} {e : E}
    (h : p i w = .ok (.error b e, w')) (conv : E → V) (f : T → Parser σ I U V) :
    Parser.bind conv p f i w = .ok (.error b (conv e), w') := by
  unfold Parser.bind
  rw [M.bind_apply, h, Res.bind_ok]
  rfl

theorem bind_incomplete {p : Parser σ I T E} {i : Input I} {w w' : σ} {n : Nat}
    (h : p i w = .ok (.incomplete n, w')) (conv : E → V) (f : T → Parser σ I U V) :
    Parser.bind conv p f i w = .ok (.incomplete n, w') := by
  unfold Parser.bind
  rw [M.bind_apply, h, Res.bind_ok]
  rfl

theorem andThen_bind (conv : E → V) (p : Parser σ I T E) (q : Parser σ I U V) :
    Parser.andThen conv p q = Parser.bind conv p fun _ => q := by
  funext i w
  unfold Parser.andThen Parser.bind
  rfl

theorem Refuses.declines {F : Input I → Prop} {p : Parser σ I T E} (h : Refuses F p) : Declines F p := by
  intro i w hi
  rcases h i w hi with ⟨b, e, w', h⟩ | ⟨_, n, w', h⟩
  · exact ⟨_, _, h, nofun⟩
  · exact ⟨_, _, h, nofun⟩

theorem Next.split {f : I → Prop} {m : Mode} {y : List I} (h : Next f ⟨m, y⟩) :
    (y = [] ∧ m = .endOfInput) ∨ ∃ c r, y = c :: r ∧ f c := by
  cases y with
  | nil => exact .inl ⟨rfl, h⟩
  | cons c r => exact .inr ⟨c, r, rfl, h⟩

theorem ReadsBack.reps {R : Format T I} {G : Input I → Prop} {p : Parser σ I T E} (hp : ReadsBack R G p)
    (hG : ∀ i, Before R G i → G i) (ts : List T) (x : List I) (m : Mode) (y : List I) (w : σ)
    (hx : Format.list R ts x) (hy : G ⟨m, y⟩) :
    G ⟨m, x ++ y⟩ ∧ ∃ w', Reps p ⟨m, x ++ y⟩ w ts ⟨m, y⟩ w' := by
  induction ts generalizing x w with
  | nil =>
    cases hx
    exact ⟨hy, w, .nil⟩
  | cons t ts ih =>
    obtain ⟨a, b, rfl, ha, hb⟩ := hx
    obtain ⟨h1, _⟩ := ih b w hb
    rw [List.append_assoc]
    obtain ⟨w1, e1⟩ := hp t a m (b ++ y) w ha h1
    obtain ⟨_, w2, r2⟩ := ih b w1 hb
    exact ⟨hG _ ⟨t, a, b ++ y, ha, rfl, h1⟩, w2, .cons e1 r2⟩

theorem ReadsBack.sepThen {R : Format T I} {S : Format V I} {G H : Input I → Prop} {p : Parser σ I T E}
    {sep : Parser σ I V N} (conv : N → E) (hp : ReadsBack R G p) (hs : ReadsBack S H sep)
    (hH : ∀ i, Before R G i → H i) : ReadsBack (Format.seq S fun _ => R) G (Spec.sepThen conv p sep) := by
  rintro t x m y w ⟨v, a, b, rfl, ha, hb⟩ hy
  rw [List.append_assoc]
  obtain ⟨w1, e1⟩ := hs v a m (b ++ y) w ha (hH _ ⟨t, b, y, hb, rfl, hy⟩)
  obtain ⟨w2, e2⟩ := hp t b m y w1 hb hy
  exact ⟨w2, by unfold Spec.sepThen; rw [e1]; exact e2⟩

theorem Refuses.sepThen {F : Input I → Prop} {p : Parser σ I T E} {sep : Parser σ I V N} (conv : N → E)
    (hs : Refuses F sep) : Refuses F (Spec.sepThen conv p sep) := by
  intro i w hi
  rcases hs i w hi with ⟨b, e, w', h⟩ | ⟨hm, n, w', h⟩
  · exact .inl ⟨b, conv e, w', by unfold Spec.sepThen; rw [h]⟩
  · exact .inr ⟨hm, n, w', by unfold Spec.sepThen; rw [h]⟩

theorem ReadsBack.sepReps {R : Format T I} {S : Format V I} {G H : Input I → Prop} {p : Parser σ I T E}
    {sep : Parser σ I V N} (conv : N → E) (hp : ReadsBack R G p) (hs : ReadsBack S H sep)
    (hG : ∀ i, Before S (Before R G) i → G i) (hH : ∀ i, Before R G i → H i)
    (ts : List T) (x : List I) (m : Mode) (y : List I) (w : σ)
    (hx : Format.separated R S ts x) (hy : G ⟨m, y⟩) :
    ∃ w', SepReps p (Spec.sepThen conv p sep) ⟨m, x ++ y⟩ w ts ⟨m, y⟩ w' := by
  cases ts with
  | nil =>
    cases hx
    exact ⟨w, .nil⟩
  | cons t ts =>
    obtain ⟨a, b, rfl, ha, hb⟩ := hx
    have hG' : ∀ i, Before (Format.seq S fun _ => R) G i → G i := by
      rintro i ⟨t, x, y, ⟨v, c, d, rfl, hc, hd⟩, e, hy⟩
      exact hG i ⟨v, c, d ++ y, hc, by rw [e, List.append_assoc], t, d, y, hd, rfl, hy⟩
    obtain ⟨h1, _⟩ := ReadsBack.reps (ReadsBack.sepThen conv hp hs hH) hG' ts b m y w hb hy
    rw [List.append_assoc]
    obtain ⟨w1, e1⟩ := hp t a m (b ++ y) w ha h1
    obtain ⟨_, w2, r2⟩ := ReadsBack.reps (ReadsBack.sepThen conv hp hs hH) hG' ts b m y w1 hb hy
    exact ⟨w2, .cons e1 r2⟩

theorem ReadsBack.repsTill {R : Format T I} {G : Input I → Prop} {p : Parser σ I T E}
    {end_ : Parser σ I V N} (hp : ReadsBack R G p) (hG : ∀ i, Before R G i → G i)
    (hd : Declines (Before R G) end_) (ts : List T) (x : List I) (m : Mode) (y : List I) (w : σ)
    (hx : Format.list R ts x) (hy : G ⟨m, y⟩) :
    G ⟨m, x ++ y⟩ ∧ ∃ w', RepsTill p end_ ⟨m, x ++ y⟩ w ts ⟨m, y⟩ w' := by
  induction ts generalizing x w with
  | nil =>
    cases hx
    exact ⟨hy, w, .nil⟩
  | cons t ts ih =>
    obtain ⟨a, b, rfl, ha, hb⟩ := hx
    obtain ⟨h1, _⟩ := ih b w hb
    rw [List.append_assoc]
    have hB : Before R G ⟨m, a ++ (b ++ y)⟩ := ⟨t, a, b ++ y, ha, rfl, h1⟩
    obtain ⟨r, w0, e0, n0⟩ := hd _ w hB
    obtain ⟨w1, e1⟩ := hp t a m (b ++ y) w0 ha h1
    obtain ⟨_, w2, r2⟩ := ih b w1 hb
    refine ⟨hG _ hB, w2, ?_⟩
    exact .cons e0 n0 e1 r2

end Chomp
