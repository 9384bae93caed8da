import Verif.Lemmas.Vec
import Verif.Lemmas.Convert
import Verif.Spec.Filling

namespace Chomp.Machine

open Spec Bounded

variable {c : Machine σ U T} {It : Type} {next : It → M σ (Option U × It)} {hint : It → Nat × Option Nat}

/-- What the code of the collection has reached. -/
inductive Steps (c : Machine σ U T) (next : It → M σ (Option U × It)) (hint : It → Nat × Option Nat) (it0 : It) (w0 : σ) :
    c.State → It → σ → Prop
  | start : Steps c next hint it0 w0 c.start it0 w0
  | next {s it w k o it' w'} : Steps c next hint it0 w0 s it w → c.ask s = .next k → next it w = .ok ((o, it'), w') →
      Steps c next hint it0 w0 (k o) it' w'
  | hint {s it w k} : Steps c next hint it0 w0 s it w → c.ask s = .hint k → Steps c next hint it0 w0 (k (hint it)) it w
  | act {s it w g s' w'} : Steps c next hint it0 w0 s it w → c.ask s = .act g → g w = .ok (s', w') →
      Steps c next hint it0 w0 s' it w'

/-- The next thing the collection does ends like this. -/
def Stops (c : Machine σ U T) (next : It → M σ (Option U × It)) (s : c.State) (it : It) (w : σ)
    (o : Res ((T × It) × σ)) : Prop :=
  match c.ask s with
  | .done t => o = .ok ((t, it), w)
  | .panic => o = .panic
  | .next _ => (next it w = .panic ∧ o = .panic) ∨ (next it w = .ub ∧ o = .ub)
  | .hint _ => False
  | .act g => (g w = .panic ∧ o = .panic) ∨ (g w = .ub ∧ o = .ub)

theorem driver_iff (it0 : It) (w0 : σ) {o : Res ((T × It) × σ)} (ho : o ≠ .div) :
    c.driver It next hint it0 w0 = o ↔ ∃ s it w, Steps c next hint it0 w0 s it w ∧ Stops c next s it w o := by
  constructor
  · intro h
    have key : ∀ {x w o}, LoopRun (fun (s : c.State × It) =>
        match c.ask s.1 with
        | .done t => pure (.inr (t, s.2))
        | .panic => M.panic
        | .next k => do
          let (o, it) ← next s.2
          pure (.inl (k o, it))
        | .hint k => pure (.inl (k (hint s.2), s.2))
        | .act g => do
          let c ← g
          pure (.inl (c, s.2))) x w o → Steps c next hint it0 w0 x.1 x.2 w →
        ∃ s it w, Steps c next hint it0 w0 s it w ∧ Stops c next s it w o := by
      intro x w o hr
      induction hr with
      | @brk x w r w' e =>
        intro hs
        refine ⟨_, _, _, hs, ?_⟩
        unfold Stops
        dsimp only at e
        cases ha : c.ask x.1 <;> rw [ha] at e <;> dsimp only at e ⊢
        case done => cases e; rfl
        case panic => cases e
        case hint => cases e
        case next =>
          obtain ⟨⟨o, it'⟩, w1, _, e⟩ := M.bind_eq_ok.mp e
          cases e
        case act =>
          obtain ⟨_, w1, _, e⟩ := M.bind_eq_ok.mp e
          cases e
      | @panic x w e =>
        intro hs
        refine ⟨_, _, _, hs, ?_⟩
        unfold Stops
        dsimp only at e
        cases ha : c.ask x.1 <;> rw [ha] at e <;> dsimp only at e ⊢
        case done => cases e
        case hint => cases e
        case next =>
          rw [M.bind_apply] at e
          cases hn : next x.2 w <;> rw [hn] at e <;> first | cases e | skip
          exact .inl ⟨rfl, rfl⟩
        case act g =>
          rw [M.bind_apply] at e
          cases hn : g w <;> rw [hn] at e <;> first | cases e | skip
          exact .inl ⟨rfl, rfl⟩
      | @ub x w e =>
        intro hs
        refine ⟨_, _, _, hs, ?_⟩
        unfold Stops
        dsimp only at e
        cases ha : c.ask x.1 <;> rw [ha] at e <;> dsimp only at e ⊢
        case done => cases e
        case panic => cases e
        case hint => cases e
        case next =>
          rw [M.bind_apply] at e
          cases hn : next x.2 w <;> rw [hn] at e <;> first | cases e | skip
          exact .inr ⟨rfl, rfl⟩
        case act g =>
          rw [M.bind_apply] at e
          cases hn : g w <;> rw [hn] at e <;> first | cases e | skip
          exact .inr ⟨rfl, rfl⟩
      | @cont x w x' w' o e _ ih =>
        intro hs
        apply ih
        dsimp only at e
        cases ha : c.ask x.1 <;> rw [ha] at e <;> dsimp only at e
        case done => cases e
        case panic => cases e
        case hint => cases e; exact .hint hs ha
        case next =>
          obtain ⟨⟨o, it'⟩, w1, h1, e⟩ := M.bind_eq_ok.mp e
          cases e
          exact .next hs ha h1
        case act =>
          obtain ⟨_, w1, h1, e⟩ := M.bind_eq_ok.mp e
          cases e
          exact .act hs ha h1
    subst h
    exact key (loop_run _ _ ho) .start
  · rintro ⟨s, it, w, hs, he⟩
    have key : c.driver It next hint it0 w0 = loop (fun (s : c.State × It) =>
        match c.ask s.1 with
        | .done t => pure (.inr (t, s.2))
        | .panic => M.panic
        | .next k => do
          let (o, it) ← next s.2
          pure (.inl (k o, it))
        | .hint k => pure (.inl (k (hint s.2), s.2))
        | .act g => do
          let c ← g
          pure (.inl (c, s.2))) (s, it) w := by
      clear he
      induction hs with
      | start => rfl
      | next _ ha hn ih =>
        rw [ih, loop_apply]
        dsimp only
        rw [ha]
        dsimp only
        rw [M.bind_apply, hn]
        rfl
      | hint _ ha ih =>
        rw [ih, loop_apply]
        dsimp only
        rw [ha]
        rfl
      | act _ ha hn ih =>
        rw [ih, loop_apply]
        dsimp only
        rw [ha]
        dsimp only
        rw [M.bind_apply, hn]
        rfl
    rw [key, loop_apply]
    unfold Stops at he
    dsimp only
    cases ha : c.ask s <;> rw [ha] at he <;> dsimp only at he ⊢
    case done => rw [he]; rfl
    case panic => rw [he]; rfl
    case next =>
      rcases he with ⟨h1, rfl⟩ | ⟨h1, rfl⟩ <;> rw [M.bind_apply, h1] <;> rfl
    case act =>
      rcases he with ⟨h1, rfl⟩ | ⟨h1, rfl⟩ <;> rw [M.bind_apply, h1] <;> rfl

/-! ### `many` -/

section Many

variable {D : Type} {h : Hooks σ D} {fin : T → Input I → D → EndState I E → ParseResult I T E} {lo : D → Nat}
  {hi : D → Option Nat} {p : Parser σ I U E} {r : Range}

def failed : Failure I E → EndState I E
  | .error b e => .error b e
  | .incomplete n => .incomplete n

/-- The iterator after `us`. -/
def After (r : Range) (lo : D → Nat) (hi : D → Option Nat) (us : List U) (last : Failure I E) (j : Input I)
    (it : Iter I E D) : Prop :=
  it.state = failed last ∧ it.buf = j ∧ lo it.data = least r - us.length ∧ hi it.data = (most r).map (· - us.length) ∧
    ∀ m, most r = some m → us.length ≤ m

theorem After.limit {us : List U} {last : Failure I E} {j : Input I} {it : Iter I E D}
    (ha : After r lo hi us last j it) : hi it.data = some 0 ↔ most r = some us.length := by
  obtain ⟨_, _, _, h4, h5⟩ := ha
  rw [h4]
  cases hm : most r with
  | none => simp
  | some m =>
    have := h5 m hm
    simp only [Option.map_some, Option.some.injEq]
    omega

theorem After.item {us : List U} {last : Failure I E} {j j' : Input I} {it : Iter I E D} {d : D} (u : U)
    (ha : After r lo hi us last j it) (hm : most r ≠ some us.length) (h1 : lo d = lo it.data - 1)
    (h2 : hi d = (hi it.data).map (· - 1)) :
    After r lo hi (us ++ [u]) last j' { it with buf := j', data := d } := by
  obtain ⟨a1, _, a3, a4, a5⟩ := ha
  refine ⟨a1, rfl, ?_, ?_, ?_⟩
  · dsimp only
    rw [h1, a3, List.length_append, List.length_singleton]
    omega
  · dsimp only
    rw [h2, a4, List.length_append, List.length_singleton]
    cases most r with
    | none => rfl
    | some m => simp only [Option.map_some, Option.some.injEq]; omega
  · intro m hm'
    have := a5 m hm'
    have : us.length ≠ m := fun e => hm (by rw [hm', e])
    rw [List.length_append, List.length_singleton]
    omega

theorem steps_session (hf : Rep.Facts h fin lo hi) {i : Input I} {d : D} {w : σ} (h1 : lo d = least r)
    (h2 : hi d = most r) {s it w'}
    (hs : Steps c (iterNext h p) (fun it => h.sizeHint it.data) ⟨.incomplete 1, i, d⟩ w s it w') :
    ∃ us last j, Filling (fun _ => p) r c i w us last s j w' ∧ After r lo hi us last j it := by
  induction hs with
  | start =>
    refine ⟨[], .incomplete 1, i, .start, rfl, rfl, h1, ?_, fun _ _ => Nat.zero_le _⟩
    dsimp only
    rw [h2]
    cases most r <;> rfl
  | @next s it w k o it' w' _ ha hn ih =>
    obtain ⟨us, last, j, hses, haf⟩ := ih
    obtain ⟨-, rfl, -⟩ := id haf
    rw [Rep.iterNext_eq] at hn
    split at hn
    · rename_i hp
      cases hn
      exact ⟨us, last, _, .limit hses ha (haf.limit.mp ((hf.pre _).mp hp)), haf⟩
    · rename_i hp
      have hh : hi it.data ≠ some 0 := fun e => hp ((hf.pre _).mpr e)
      have hm : most r ≠ some us.length := fun e => hh (haf.limit.mpr e)
      cases hr : p it.buf w with
      | ok x =>
        obtain ⟨x, w2⟩ := x
        rw [hr] at hn
        cases x with
        | data b v =>
          obtain ⟨d', e1, e2, e3⟩ := hf.on it.data w2 hh
          simp only [Res.bind_ok, e1] at hn
          cases hn
          exact ⟨us ++ [v], last, b, .item hses ha hm hr, haf.item v hm e2 e3⟩
        | error b e => cases hn; exact ⟨us, .error b e, _, .error hses ha hm hr, rfl, rfl, haf.2.2⟩
        | incomplete n => cases hn; exact ⟨us, .incomplete n, _, .incomplete hses ha hm hr, rfl, rfl, haf.2.2⟩
      | _ => rw [hr] at hn; cases hn
  | hint _ ha ih =>
    obtain ⟨us, last, j, hses, haf⟩ := ih
    refine ⟨us, last, j, ?_, haf⟩
    have := Filling.hint hses ha
    rwa [hintAfter, ← haf.2.2.1, ← haf.2.2.2.1, ← hf.hint] at this
  | act _ ha hg ih =>
    obtain ⟨us, last, j, hses, haf⟩ := ih
    exact ⟨us, last, j, .act hses ha hg, haf⟩

theorem session_steps (hf : Rep.Facts h fin lo hi) {i : Input I} {d : D} {w : σ} (h1 : lo d = least r)
    (h2 : hi d = most r) {us last s j w'} (hs : Filling (fun _ => p) r c i w us last s j w') :
    ∃ it, Steps c (iterNext h p) (fun it => h.sizeHint it.data) ⟨.incomplete 1, i, d⟩ w s it w' ∧
      After r lo hi us last j it := by
  induction hs with
  | start =>
    refine ⟨_, .start, rfl, rfl, h1, ?_, fun _ _ => Nat.zero_le _⟩
    dsimp only
    rw [h2]
    cases most r <;> rfl
  | @item us last s j w1 k j' u w2 _ ha hm hp ih =>
    obtain ⟨it, hst, haf⟩ := ih
    obtain ⟨-, rfl, -⟩ := id haf
    have hh : hi it.data ≠ some 0 := fun e => hm (haf.limit.mp e)
    obtain ⟨d', e1, e2, e3⟩ := hf.on it.data w2 hh
    refine ⟨{ it with buf := j', data := d' }, .next hst ha ?_, haf.item u hm e2 e3⟩
    rw [Rep.iterNext_eq, if_neg (fun e => hh ((hf.pre _).mp e)), hp]
    simp only [Res.bind_ok, e1]
  | @error us last s j w1 k b e w2 _ ha hm hp ih =>
    obtain ⟨it, hst, haf⟩ := ih
    obtain ⟨-, rfl, -⟩ := id haf
    have hh : hi it.data ≠ some 0 := fun e => hm (haf.limit.mp e)
    refine ⟨{ it with state := .error b e }, .next hst ha ?_, rfl, rfl, haf.2.2⟩
    rw [Rep.iterNext_eq, if_neg (fun e => hh ((hf.pre _).mp e)), hp]
    rfl
  | @incomplete us last s j w1 k n w2 _ ha hm hp ih =>
    obtain ⟨it, hst, haf⟩ := ih
    obtain ⟨-, rfl, -⟩ := id haf
    have hh : hi it.data ≠ some 0 := fun e => hm (haf.limit.mp e)
    refine ⟨{ it with state := .incomplete n }, .next hst ha ?_, rfl, rfl, haf.2.2⟩
    rw [Rep.iterNext_eq, if_neg (fun e => hh ((hf.pre _).mp e)), hp]
    rfl
  | limit _ ha hm ih =>
    obtain ⟨it, hst, haf⟩ := ih
    refine ⟨it, .next hst ha ?_, haf⟩
    rw [Rep.iterNext_eq, if_pos ((hf.pre _).mpr (haf.limit.mpr hm))]
  | hint _ ha ih =>
    obtain ⟨it, hst, haf⟩ := ih
    refine ⟨it, ?_, haf⟩
    have := Steps.hint hst ha
    rwa [hf.hint, haf.2.2.1, haf.2.2.2.1] at this
  | act _ ha hg ih =>
    obtain ⟨it, hst, haf⟩ := ih
    exact ⟨it, .act hst ha hg, haf⟩

theorem fin_eq (hf : Rep.Facts h fin lo hi) {us : List U} {last : Failure I E} {j : Input I} {it : Iter I E D}
    (ha : After r lo hi us last j it) (t : T) : fin t it.buf it.data it.state = endMany r us.length t j last := by
  have hl := ha.limit
  obtain ⟨a1, rfl, a3, -, -⟩ := ha
  have e : lo it.data = 0 ↔ least r ≤ us.length := by omega
  rw [a1]
  cases last with
  | error b e' =>
    rw [failed, hf.finE, endMany]
    simp only [e]
  | incomplete n =>
    rw [failed, hf.finI, endMany, Rep.final]
    simp only [e, hl]

theorem next_crash (hf : Rep.Facts h fin lo hi) {us : List U} {last : Failure I E} {j : Input I} {it : Iter I E D}
    (ha : After r lo hi us last j it) (w : σ) :
    (iterNext h p it w = .panic ↔ most r ≠ some us.length ∧ p j w = .panic) ∧
      (iterNext h p it w = .ub ↔ most r ≠ some us.length ∧ p j w = .ub) := by
  have hl := ha.limit
  obtain ⟨-, rfl, -⟩ := ha
  rw [Rep.iterNext_eq]
  by_cases hp : h.pre it.data = true
  · have := hl.mp ((hf.pre _).mp hp)
    simp [hp, this]
  · have hh : hi it.data ≠ some 0 := fun e => hp ((hf.pre _).mpr e)
    have hm : most r ≠ some us.length := fun e => hh (hl.mpr e)
    rw [if_neg hp]
    cases hr : p it.buf w with
    | ok x =>
      obtain ⟨x, w2⟩ := x
      cases x with
      | data b v =>
        obtain ⟨d', e1, e2, e3⟩ := hf.on it.data w2 hh
        simp [e1]
      | _ => simp
    | _ => simp [hm]

theorem many_outcome (hr : Fine r) (i : Input I) (w : σ) {o : Res (ParseResult I T E × σ)} (ho : o ≠ .div) :
    manyWith r c.driver p i w = o ↔ CollectOutcome (fun _ => p) r c i w o := by
  obtain ⟨D, d, h, fin, lo, hi, hk, hf, e1, e2⟩ := Rep.manyWith_iter (T := T) ((Vec.fine_eq r).mpr hr) p
  rw [Vec.most_eq] at e2
  rw [Vec.least_eq] at e1
  rw [hk, runIter, M.bind_apply]
  constructor
  · intro he
    have hd : c.driver _ (iterNext h p) (fun it => h.sizeHint it.data) ⟨.incomplete 1, i, d⟩ w ≠ .div := by
      intro e
      rw [e] at he
      exact ho he.symm
    obtain ⟨s, it, w', hs, hst⟩ := (driver_iff (c := c) _ w hd).mp rfl
    obtain ⟨us, last, j, hses, haf⟩ := steps_session hf e1 e2 hs
    rw [Stops] at hst
    cases ha : c.ask s with
    | done t =>
      rw [ha] at hst
      dsimp only at hst
      rw [hst] at he
      simp only [Res.bind_ok, M.pure_apply, fin_eq hf haf] at he
      exact he ▸ .done hses ha
    | panic =>
      rw [ha] at hst
      dsimp only at hst
      rw [hst] at he
      exact he ▸ .panic hses ha
    | hint k =>
      rw [ha] at hst
      exact hst.elim
    | next k =>
      rw [ha] at hst
      rcases hst with ⟨h1, h2⟩ | ⟨h1, h2⟩ <;> rw [h2] at he
      · obtain ⟨h3, h4⟩ := (next_crash hf haf w').1.mp h1
        exact he ▸ .parser_panic hses ha h3 h4
      · obtain ⟨h3, h4⟩ := (next_crash hf haf w').2.mp h1
        exact he ▸ .parser_ub hses ha h3 h4
    | act g =>
      rw [ha] at hst
      rcases hst with ⟨h1, h2⟩ | ⟨h1, h2⟩ <;> rw [h2] at he
      · exact he ▸ .act_panic hses ha h1
      · exact he ▸ .act_ub hses ha h1
  · intro he
    cases he with
    | done hses ha =>
      obtain ⟨it, hs, haf⟩ := session_steps hf e1 e2 hses
      rw [(driver_iff _ w (o := .ok ((_, it), _)) nofun).mpr ⟨_, _, _, hs, by rw [Stops, ha]⟩]
      simp only [Res.bind_ok, M.pure_apply, fin_eq hf haf]
    | panic hses ha =>
      obtain ⟨it, hs, haf⟩ := session_steps hf e1 e2 hses
      rw [(driver_iff _ w (o := .panic) nofun).mpr ⟨_, _, _, hs, by rw [Stops, ha]⟩]
      rfl
    | act_panic hses ha hg =>
      obtain ⟨it, hs, haf⟩ := session_steps hf e1 e2 hses
      rw [(driver_iff _ w (o := .panic) nofun).mpr ⟨_, _, _, hs, by rw [Stops, ha]; exact .inl ⟨hg, rfl⟩⟩]
      rfl
    | act_ub hses ha hg =>
      obtain ⟨it, hs, haf⟩ := session_steps hf e1 e2 hses
      rw [(driver_iff _ w (o := .ub) nofun).mpr ⟨_, _, _, hs, by rw [Stops, ha]; exact .inr ⟨hg, rfl⟩⟩]
      rfl
    | parser_panic hses ha hm hp =>
      obtain ⟨it, hs, haf⟩ := session_steps hf e1 e2 hses
      rw [(driver_iff _ w (o := .panic) nofun).mpr ⟨_, _, _, hs, by
        rw [Stops, ha]; exact .inl ⟨(next_crash hf haf _).1.mpr ⟨hm, hp⟩, rfl⟩⟩]
      rfl
    | parser_ub hses ha hm hp =>
      obtain ⟨it, hs, haf⟩ := session_steps hf e1 e2 hses
      rw [(driver_iff _ w (o := .ub) nofun).mpr ⟨_, _, _, hs, by
        rw [Stops, ha]; exact .inr ⟨(next_crash hf haf _).2.mpr ⟨hm, hp⟩, rfl⟩⟩]
      rfl

end Many

/-! ### `many_till` -/

section Till

variable {D : Type} {h : HooksTill σ I E D} {fin : T → Input I → D → EndStateTill I E → M σ (ParseResult I T E)}
  {lo : D → Nat} {hi : D → Option Nat} {p : Parser σ I U E} {end_ : Parser σ I V N} {r : Range}

def stopped : Option (Failure I E) → EndStateTill I E
  | some (.error b e) => .error b e
  | some (.incomplete n) => .incomplete n
  | none => .endSuccess

/-- The iterator after `us`. -/
def AfterTill (r : Range) (lo : D → Nat) (hi : D → Option Nat) (us : List U) (last : Option (Failure I E)) (j : Input I)
    (it : IterTill I E D) : Prop :=
  it.state = stopped last ∧ it.buf = j ∧ lo it.data = least r - us.length ∧ hi it.data = (most r).map (· - us.length) ∧
    ∀ m, most r = some m → us.length ≤ m

theorem AfterTill.limit {us : List U} {last : Option (Failure I E)} {j : Input I} {it : IterTill I E D}
    (ha : AfterTill r lo hi us last j it) : hi it.data = some 0 ↔ most r = some us.length := by
  obtain ⟨_, _, _, h4, h5⟩ := ha
  rw [h4]
  cases hm : most r with
  | none => simp
  | some m =>
    have := h5 m hm
    simp only [Option.map_some, Option.some.injEq]
    omega

theorem AfterTill.tries {us : List U} {last : Option (Failure I E)} {j : Input I} {it : IterTill I E D}
    (ha : AfterTill r lo hi us last j it) :
    Till.triesAt (Till.last r) (lo it.data) (hi it.data) = triesAfter r us.length := by
  have hl := ha.limit
  have e : lo it.data = 0 ↔ least r ≤ us.length := by
    have := ha.2.2.1
    omega
  have : Till.last r = triesAtLimit r := by cases r <;> rfl
  rw [Till.triesAt, triesAfter, this]
  simp only [hl, e]

theorem AfterTill.item {us : List U} {last : Option (Failure I E)} {j j' : Input I} {it : IterTill I E D} {d : D} (u : U)
    (ha : AfterTill r lo hi us last j it) (hm : most r ≠ some us.length) (h1 : lo d = lo it.data - 1)
    (h2 : hi d = (hi it.data).map (· - 1)) :
    AfterTill r lo hi (us ++ [u]) last j' { it with buf := j', data := d } := by
  obtain ⟨a1, _, a3, a4, a5⟩ := ha
  refine ⟨a1, rfl, ?_, ?_, ?_⟩
  · dsimp only
    rw [h1, a3, List.length_append, List.length_singleton]
    omega
  · dsimp only
    rw [h2, a4, List.length_append, List.length_singleton]
    cases most r with
    | none => rfl
    | some m => simp only [Option.map_some, Option.some.injEq]; omega
  · intro m hm'
    have := a5 m hm'
    have : us.length ≠ m := fun e => hm (by rw [hm', e])
    rw [List.length_append, List.length_singleton]
    omega

theorem till_next (hf : Till.Facts h fin end_ (Till.last r) good lo hi) {us : List U} {last : Option (Failure I E)}
    {j : Input I} {it : IterTill I E D} (ha : AfterTill r lo hi us last j it) (w : σ) :
    iterTillNext h p it w = Till.test end_ (triesAfter r us.length) j w >>= fun x =>
      match x.1 with
      | some b => .ok ((none, { it with buf := b, state := .endSuccess }), x.2)
      | none =>
        if hi it.data = some 0 then .ok ((none, it), x.2)
        else p j x.2 >>= fun r => match r.1 with
          | .data b v => h.on it.data r.2 >>= fun d => .ok ((some v, { it with buf := b, data := d.1 }), d.2)
          | .error b e => .ok ((none, { it with state := .error b e }), r.2)
          | .incomplete n => .ok ((none, { it with state := .incomplete n }), r.2) := by
  have ht := ha.tries
  obtain ⟨-, rfl, -⟩ := ha
  rw [Till.iterTillNext_eq, hf.pre, ht]
  cases Till.test end_ (triesAfter r us.length) it.buf w with
  | ok x =>
    obtain ⟨x, w2⟩ := x
    cases x with
    | some b => rfl
    | none =>
      by_cases hh : hi it.data = some 0
      · simp [hh]
      · simp only [Res.bind_ok, decide_eq_true_eq, if_neg hh]
        congr 1
        funext ⟨x, w3⟩
        cases x <;> rfl
  | _ => rfl

theorem steps_till (hf : Till.Facts h fin end_ (Till.last r) good lo hi) {i : Input I} {d : D} {w : σ}
    (h1 : lo d = least r) (h2 : hi d = most r) {s it w'}
    (hs : Steps c (iterTillNext h p) (fun it => h.sizeHint it.data) ⟨.incomplete 1, i, d⟩ w s it w') :
    ∃ us last j, FillingTill p end_ r c i w us last s j w' ∧ AfterTill r lo hi us last j it := by
  induction hs with
  | start =>
    refine ⟨[], some (.incomplete 1), i, .start, rfl, rfl, h1, ?_, fun _ _ => Nat.zero_le _⟩
    dsimp only
    rw [h2]
    cases most r <;> rfl
  | @next s it w k o it' w' _ ha hn ih =>
    obtain ⟨us, last, j, hses, haf⟩ := ih
    rw [till_next hf haf] at hn
    cases ht : Till.test end_ (triesAfter r us.length) j w with
    | ok x =>
      obtain ⟨x, w2⟩ := x
      rw [ht] at hn
      have ht' := Till.test_iff.mp ht
      cases x with
      | some b =>
        cases hn
        exact ⟨us, none, b, .ended hses ha ht', rfl, rfl, haf.2.2⟩
      | none =>
        simp only [Res.bind_ok] at hn
        split at hn
        · rename_i hh
          cases hn
          exact ⟨us, last, j, .limit hses ha ht' (haf.limit.mp hh), haf⟩
        · rename_i hh
          have hm : most r ≠ some us.length := fun e => hh (haf.limit.mpr e)
          cases hr : p j w2 with
          | ok x =>
            obtain ⟨x, w3⟩ := x
            rw [hr] at hn
            cases x with
            | data b v =>
              obtain ⟨d', e1, e2, e3⟩ := hf.on it.data w3 hh
              simp only [Res.bind_ok, e1] at hn
              cases hn
              exact ⟨us ++ [v], last, b, .item hses ha ht' hm hr, haf.item v hm e2 e3⟩
            | error b e =>
              cases hn
              exact ⟨us, some (.error b e), j, .error hses ha ht' hm hr, rfl, haf.2.1, haf.2.2⟩
            | incomplete n =>
              cases hn
              exact ⟨us, some (.incomplete n), j, .incomplete hses ha ht' hm hr, rfl, haf.2.1, haf.2.2⟩
          | _ => rw [hr] at hn; cases hn
    | _ => rw [ht] at hn; cases hn
  | hint _ ha ih =>
    obtain ⟨us, last, j, hses, haf⟩ := ih
    refine ⟨us, last, j, ?_, haf⟩
    have := FillingTill.hint hses ha
    rwa [hintAfter, ← haf.2.2.1, ← haf.2.2.2.1, ← hf.hint] at this
  | act _ ha hg ih =>
    obtain ⟨us, last, j, hses, haf⟩ := ih
    exact ⟨us, last, j, .act hses ha hg, haf⟩

theorem till_steps (hf : Till.Facts h fin end_ (Till.last r) good lo hi) {i : Input I} {d : D} {w : σ}
    (h1 : lo d = least r) (h2 : hi d = most r) {us last s j w'} (hs : FillingTill p end_ r c i w us last s j w') :
    ∃ it, Steps c (iterTillNext h p) (fun it => h.sizeHint it.data) ⟨.incomplete 1, i, d⟩ w s it w' ∧
      AfterTill r lo hi us last j it := by
  induction hs with
  | start =>
    refine ⟨_, .start, rfl, rfl, h1, ?_, fun _ _ => Nat.zero_le _⟩
    dsimp only
    rw [h2]
    cases most r <;> rfl
  | @ended us last s j w1 k j' w2 _ ha ht ih =>
    obtain ⟨it, hst, haf⟩ := ih
    refine ⟨{ it with buf := j', state := .endSuccess }, .next hst ha ?_, rfl, rfl, haf.2.2⟩
    rw [till_next hf haf, Till.test_iff.mpr ht]
    rfl
  | @item us last s j w1 k w2 j' u w3 _ ha ht hm hp ih =>
    obtain ⟨it, hst, haf⟩ := ih
    have hh : hi it.data ≠ some 0 := fun e => hm (haf.limit.mp e)
    obtain ⟨d', e1, e2, e3⟩ := hf.on it.data w3 hh
    refine ⟨{ it with buf := j', data := d' }, .next hst ha ?_, haf.item u hm e2 e3⟩
    rw [till_next hf haf, Till.test_iff.mpr ht]
    simp only [Res.bind_ok, if_neg hh, hp, e1]
  | @error us last s j w1 k w2 b e w3 _ ha ht hm hp ih =>
    obtain ⟨it, hst, haf⟩ := ih
    have hh : hi it.data ≠ some 0 := fun e => hm (haf.limit.mp e)
    refine ⟨{ it with state := .error b e }, .next hst ha ?_, rfl, haf.2.1, haf.2.2⟩
    rw [till_next hf haf, Till.test_iff.mpr ht]
    simp only [Res.bind_ok, if_neg hh, hp]
  | @incomplete us last s j w1 k w2 n w3 _ ha ht hm hp ih =>
    obtain ⟨it, hst, haf⟩ := ih
    have hh : hi it.data ≠ some 0 := fun e => hm (haf.limit.mp e)
    refine ⟨{ it with state := .incomplete n }, .next hst ha ?_, rfl, haf.2.1, haf.2.2⟩
    rw [till_next hf haf, Till.test_iff.mpr ht]
    simp only [Res.bind_ok, if_neg hh, hp]
  | limit _ ha ht hm ih =>
    obtain ⟨it, hst, haf⟩ := ih
    refine ⟨it, .next hst ha ?_, haf⟩
    rw [till_next hf haf, Till.test_iff.mpr ht]
    simp only [Res.bind_ok, if_pos (haf.limit.mpr hm)]
  | hint _ ha ih =>
    obtain ⟨it, hst, haf⟩ := ih
    refine ⟨it, ?_, haf⟩
    have := Steps.hint hst ha
    rwa [hf.hint, haf.2.2.1, haf.2.2.2.1] at this
  | act _ ha hg ih =>
    obtain ⟨it, hst, haf⟩ := ih
    exact ⟨it, .act hst ha hg, haf⟩

theorem fin_till (hf : Till.Facts h fin end_ (Till.last r) (Till.good r) lo hi) {us : List U}
    {last : Option (Failure I E)} {j : Input I} {it : IterTill I E D} (ha : AfterTill r lo hi us last j it) (t : T) (w : σ) :
    (last = none ∧ ¬ Allowed r us.length → fin t it.buf it.data it.state w = .panic) ∧
      (¬ (last = none ∧ ¬ Allowed r us.length) → fin t it.buf it.data it.state w = .ok (endTill t j last, w)) := by
  have hl := ha.limit
  obtain ⟨a1, rfl, a3, -, a5⟩ := ha
  rw [a1]
  match last with
  | some (.error b e) => exact ⟨nofun, fun _ => hf.finE ..⟩
  | some (.incomplete n) => exact ⟨nofun, fun _ => hf.finI ..⟩
  | none =>
    rw [stopped, hf.finS]
    have : Till.good r (lo it.data) (hi it.data) = true ↔ Allowed r us.length := by
      cases r with
      | to n =>
        have := a5 (n - 1) rfl
        simp only [Till.good, beq_iff_eq, hl, Allowed, most, Option.some.injEq]
        omega
      | _ => simp only [Till.good, beq_iff_eq, Allowed]; omega
    refine ⟨fun hg => if_neg (fun e => hg.2 (this.mp e)), fun hg => if_pos (this.mpr ?_)⟩
    exact Classical.byContradiction fun e => hg ⟨rfl, e⟩

theorem till_crash (hf : Till.Facts h fin end_ (Till.last r) good lo hi) {us : List U} {last : Option (Failure I E)}
    {j : Input I} {it : IterTill I E D} (ha : AfterTill r lo hi us last j it) (w : σ) :
    (iterTillNext h p it w = .panic ↔
      (∃ n w1, n < triesAfter r us.length ∧ Test end_ n j w none w1 ∧ end_ j w1 = .panic) ∨
      ∃ w1, Test end_ (triesAfter r us.length) j w none w1 ∧ most r ≠ some us.length ∧ p j w1 = .panic) ∧
    (iterTillNext h p it w = .ub ↔
      (∃ n w1, n < triesAfter r us.length ∧ Test end_ n j w none w1 ∧ end_ j w1 = .ub) ∨
      ∃ w1, Test end_ (triesAfter r us.length) j w none w1 ∧ most r ≠ some us.length ∧ p j w1 = .ub) := by
  rw [till_next hf ha, ← Till.test_crash.1, ← Till.test_crash.2]
  simp only [← Till.test_iff]
  have hl := ha.limit
  cases ht : Till.test end_ (triesAfter r us.length) j w with
  | ok x =>
    obtain ⟨x, w2⟩ := x
    cases x with
    | some b => simp
    | none =>
      by_cases hm : most r = some us.length
      · simp [hl.mpr hm, hm]
      · have hh : hi it.data ≠ some 0 := fun e => hm (hl.mp e)
        simp only [Res.bind_ok, if_neg hh]
        cases hr : p j w2 with
        | ok x =>
          obtain ⟨x, w3⟩ := x
          cases x with
          | data b v =>
            obtain ⟨d', e1, e2, e3⟩ := hf.on it.data w3 hh
            simp [e1, hr]
          | _ => simp [hr]
        | _ => simp [hm, hr]
  | _ => simp

theorem till_outcome (hr : Fine r) (i : Input I) (w : σ) {o : Res (ParseResult I T E × σ)} (ho : o ≠ .div) :
    manyTillWith r c.driver p end_ i w = o ↔ CollectTill p end_ r c i w o := by
  obtain ⟨D, d, h, fin, lo, hi, hk, hf, e1, e2⟩ := Till.manyTillWith_iter (T := T) ((Vec.fine_eq r).mpr hr) p end_
  rw [Vec.most_eq] at e2
  rw [Vec.least_eq] at e1
  rw [hk, runIterTill, M.bind_apply]
  constructor
  · intro he
    have hd : c.driver _ (iterTillNext h p) (fun it => h.sizeHint it.data) ⟨.incomplete 1, i, d⟩ w ≠ .div := by
      intro e
      rw [e] at he
      exact ho he.symm
    obtain ⟨s, it, w', hs, hst⟩ := (driver_iff (c := c) _ w hd).mp rfl
    obtain ⟨us, last, j, hses, haf⟩ := steps_till hf e1 e2 hs
    rw [Stops] at hst
    cases ha : c.ask s with
    | done t =>
      rw [ha] at hst
      dsimp only at hst
      rw [hst] at he
      simp only [Res.bind_ok] at he
      by_cases hl : last = none ∧ ¬ Allowed r us.length
      · rw [(fin_till hf haf t w').1 hl] at he
        obtain ⟨rfl, hl⟩ := hl
        exact he ▸ .early hses ha hl
      · rw [(fin_till hf haf t w').2 hl] at he
        exact he ▸ .done hses ha (fun e => Classical.byContradiction fun h => hl ⟨e, h⟩)
    | panic =>
      rw [ha] at hst
      dsimp only at hst
      rw [hst] at he
      exact he ▸ .panic hses ha
    | hint k =>
      rw [ha] at hst
      exact hst.elim
    | next k =>
      rw [ha] at hst
      rcases hst with ⟨h1, h2⟩ | ⟨h1, h2⟩ <;> rw [h2] at he
      · rcases (till_crash hf haf w').1.mp h1 with ⟨n, w1, h3, h4, h5⟩ | ⟨w1, h3, h4, h5⟩
        · exact he ▸ .end_panic hses ha h3 h4 h5
        · exact he ▸ .parser_panic hses ha h3 h4 h5
      · rcases (till_crash hf haf w').2.mp h1 with ⟨n, w1, h3, h4, h5⟩ | ⟨w1, h3, h4, h5⟩
        · exact he ▸ .end_ub hses ha h3 h4 h5
        · exact he ▸ .parser_ub hses ha h3 h4 h5
    | act g =>
      rw [ha] at hst
      rcases hst with ⟨h1, h2⟩ | ⟨h1, h2⟩ <;> rw [h2] at he
      · exact he ▸ .act_panic hses ha h1
      · exact he ▸ .act_ub hses ha h1
  · intro he
    cases he with
    | done hses ha hl =>
      obtain ⟨it, hs, haf⟩ := till_steps hf e1 e2 hses
      rw [(driver_iff _ w (o := .ok ((_, it), _)) nofun).mpr ⟨_, _, _, hs, by rw [Stops, ha]⟩]
      exact (fin_till hf haf _ _).2 (fun e => e.2 (hl e.1))
    | early hses ha hl =>
      obtain ⟨it, hs, haf⟩ := till_steps hf e1 e2 hses
      rw [(driver_iff _ w (o := .ok ((_, it), _)) nofun).mpr ⟨_, _, _, hs, by rw [Stops, ha]⟩]
      exact (fin_till hf haf _ _).1 ⟨rfl, hl⟩
    | panic hses ha =>
      obtain ⟨it, hs, haf⟩ := till_steps hf e1 e2 hses
      rw [(driver_iff _ w (o := .panic) nofun).mpr ⟨_, _, _, hs, by rw [Stops, ha]⟩]
      rfl
    | act_panic hses ha hg =>
      obtain ⟨it, hs, haf⟩ := till_steps hf e1 e2 hses
      rw [(driver_iff _ w (o := .panic) nofun).mpr ⟨_, _, _, hs, by rw [Stops, ha]; exact .inl ⟨hg, rfl⟩⟩]
      rfl
    | act_ub hses ha hg =>
      obtain ⟨it, hs, haf⟩ := till_steps hf e1 e2 hses
      rw [(driver_iff _ w (o := .ub) nofun).mpr ⟨_, _, _, hs, by rw [Stops, ha]; exact .inr ⟨hg, rfl⟩⟩]
      rfl
    | end_panic hses ha h3 h4 h5 =>
      obtain ⟨it, hs, haf⟩ := till_steps hf e1 e2 hses
      rw [(driver_iff _ w (o := .panic) nofun).mpr ⟨_, _, _, hs, by
        rw [Stops, ha]; exact .inl ⟨(till_crash hf haf _).1.mpr (.inl ⟨_, _, h3, h4, h5⟩), rfl⟩⟩]
      rfl
    | end_ub hses ha h3 h4 h5 =>
      obtain ⟨it, hs, haf⟩ := till_steps hf e1 e2 hses
      rw [(driver_iff _ w (o := .ub) nofun).mpr ⟨_, _, _, hs, by
        rw [Stops, ha]; exact .inr ⟨(till_crash hf haf _).2.mpr (.inl ⟨_, _, h3, h4, h5⟩), rfl⟩⟩]
      rfl
    | parser_panic hses ha h3 h4 h5 =>
      obtain ⟨it, hs, haf⟩ := till_steps hf e1 e2 hses
      rw [(driver_iff _ w (o := .panic) nofun).mpr ⟨_, _, _, hs, by
        rw [Stops, ha]; exact .inl ⟨(till_crash hf haf _).1.mpr (.inr ⟨_, h3, h4, h5⟩), rfl⟩⟩]
      rfl
    | parser_ub hses ha h3 h4 h5 =>
      obtain ⟨it, hs, haf⟩ := till_steps hf e1 e2 hses
      rw [(driver_iff _ w (o := .ub) nofun).mpr ⟨_, _, _, hs, by
        rw [Stops, ha]; exact .inr ⟨(till_crash hf haf _).2.mpr (.inr ⟨_, h3, h4, h5⟩), rfl⟩⟩]
      rfl

end Till

/-! ### `sep_by` -/

section Sep

variable {p : Parser σ I U E} {sep : Parser σ I V N} {conv : N → M σ E} {r : Range}

theorem sep_attempt (us : List U) (j : Input I) (w : σ) :
    Converted.sepParser conv p sep j (w, !us.isEmpty)
      = Sep.flag (!us.isEmpty) (attempt p (sepThenFrom conv p sep) us j w) := by
  rw [Converted.sepParser_eq, Sep.sepParser_eq, ← Converted.sepThenFrom_eq]
  cases us <;> rfl

theorem sep_session {i : Input I} {w : σ} {us last s j} {v : σ × Bool}
    (hs : Filling (fun _ => Converted.sepParser conv p sep) r c.inner i (w, false) us last s j v) :
    v.2 = !us.isEmpty ∧ Filling (attempt p (sepThenFrom conv p sep)) r c i w us last s j v.1 := by
  induction hs with
  | start => exact ⟨rfl, .start⟩
  | @item us last s j v k j' u v2 _ ha hm hp ih =>
    obtain ⟨w1, f⟩ := v
    obtain ⟨rfl, hses⟩ := ih
    replace hp : Converted.sepParser conv p sep j (w1, !us.isEmpty) = _ := hp
    rw [sep_attempt] at hp
    cases hq : attempt p (sepThenFrom conv p sep) us j w1 with
    | ok x =>
      obtain ⟨x, w2⟩ := x
      rw [hq] at hp
      cases x <;> cases hp
      refine ⟨by simp, .item hses (inner_next.mp ha) hm hq⟩
    | _ => rw [hq] at hp; cases hp
  | @error us last s j v k b e v2 _ ha hm hp ih =>
    obtain ⟨w1, f⟩ := v
    obtain ⟨rfl, hses⟩ := ih
    replace hp : Converted.sepParser conv p sep j (w1, !us.isEmpty) = _ := hp
    rw [sep_attempt] at hp
    cases hq : attempt p (sepThenFrom conv p sep) us j w1 with
    | ok x =>
      obtain ⟨x, w2⟩ := x
      rw [hq] at hp
      cases x <;> cases hp
      exact ⟨rfl, .error hses (inner_next.mp ha) hm hq⟩
    | _ => rw [hq] at hp; cases hp
  | @incomplete us last s j v k n v2 _ ha hm hp ih =>
    obtain ⟨w1, f⟩ := v
    obtain ⟨rfl, hses⟩ := ih
    replace hp : Converted.sepParser conv p sep j (w1, !us.isEmpty) = _ := hp
    rw [sep_attempt] at hp
    cases hq : attempt p (sepThenFrom conv p sep) us j w1 with
    | ok x =>
      obtain ⟨x, w2⟩ := x
      rw [hq] at hp
      cases x <;> cases hp
      exact ⟨rfl, .incomplete hses (inner_next.mp ha) hm hq⟩
    | _ => rw [hq] at hp; cases hp
  | limit _ ha hm ih => exact ⟨ih.1, .limit ih.2 (inner_next.mp ha) hm⟩
  | hint _ ha ih => exact ⟨ih.1, .hint ih.2 (inner_hint.mp ha)⟩
  | @act us last s j v g s' v2 _ ha hg ih =>
    obtain ⟨g', ha', rfl⟩ := inner_act.mp ha
    unfold Comb.withLocal at hg
    cases hq : g' v.1 with
    | ok x => rw [hq] at hg; cases hg; exact ⟨ih.1, .act ih.2 ha' hq⟩
    | _ => rw [hq] at hg; cases hg

theorem session_sep {i : Input I} {w w' : σ} {us last s j}
    (hs : Filling (attempt p (sepThenFrom conv p sep)) r c i w us last s j w') :
    Filling (fun _ => Converted.sepParser conv p sep) r c.inner i (w, false) us last s j (w', !us.isEmpty) := by
  induction hs with
  | start => exact .start (c := c.inner)
  | @item us last s j w1 k j' u w2 _ ha hm hp ih =>
    have := ih.item (inner_next.mpr ha) hm (by rw [sep_attempt, hp]; rfl)
    have e : (!(us ++ [u]).isEmpty) = true := by simp
    rw [e]
    exact this
  | error _ ha hm hp ih => exact ih.error (inner_next.mpr ha) hm (by rw [sep_attempt, hp]; rfl)
  | incomplete _ ha hm hp ih => exact ih.incomplete (inner_next.mpr ha) hm (by rw [sep_attempt, hp]; rfl)
  | limit _ ha hm ih => exact ih.limit (inner_next.mpr ha) hm
  | hint _ ha ih => exact ih.hint (inner_hint.mpr ha)
  | act _ ha hg ih => exact ih.act (inner_act.mpr ⟨_, ha, rfl⟩) (by rw [Comb.withLocal, hg]; rfl)

theorem sep_outcome (hr : Fine r) (i : Input I) (w : σ) {o : Res (ParseResult I T E × σ)} (ho : o ≠ .div) :
    Comb.newLocal false (manyWith r c.inner.driver (Converted.sepParser conv p sep) i) w = o ↔
      CollectOutcome (attempt p (sepThenFrom conv p sep)) r c i w o := by
  unfold Comb.newLocal
  constructor
  · intro he
    have hd : manyWith r c.inner.driver (Converted.sepParser conv p sep) i (w, false) ≠ .div := by
      intro e
      rw [e] at he
      exact ho he.symm
    have key := (many_outcome hr i (w, false) hd).mp rfl
    generalize manyWith r c.inner.driver (Converted.sepParser conv p sep) i (w, false) = o' at he key
    cases key with
    | done hses ha => exact he ▸ .done (sep_session hses).2 (inner_done.mp ha)
    | panic hses ha => exact he ▸ .panic (sep_session hses).2 (inner_panic.mp ha)
    | @act_panic _ _ _ _ v _ hses ha hg =>
      obtain ⟨g', ha', rfl⟩ := inner_act.mp ha
      refine he ▸ .act_panic (sep_session hses).2 ha' ?_
      unfold Comb.withLocal at hg
      cases hq : g' v.1 <;> rw [hq] at hg <;> first | rfl | cases hg
    | @act_ub _ _ _ _ v _ hses ha hg =>
      obtain ⟨g', ha', rfl⟩ := inner_act.mp ha
      refine he ▸ .act_ub (sep_session hses).2 ha' ?_
      unfold Comb.withLocal at hg
      cases hq : g' v.1 <;> rw [hq] at hg <;> first | rfl | cases hg
    | @parser_panic us _ _ j v _ hses ha hm hp =>
      obtain ⟨w1, f⟩ := v
      obtain ⟨rfl, hses'⟩ := sep_session hses
      refine he ▸ .parser_panic hses' (inner_next.mp ha) hm ?_
      replace hp : Converted.sepParser conv p sep j (w1, !us.isEmpty) = _ := hp
      rw [sep_attempt] at hp
      cases hq : attempt p (sepThenFrom conv p sep) us j w1 with
      | ok x => obtain ⟨x, _⟩ := x; rw [hq] at hp; cases x <;> cases hp
      | panic => rfl
      | _ => rw [hq] at hp; cases hp
    | @parser_ub us _ _ j v _ hses ha hm hp =>
      obtain ⟨w1, f⟩ := v
      obtain ⟨rfl, hses'⟩ := sep_session hses
      refine he ▸ .parser_ub hses' (inner_next.mp ha) hm ?_
      replace hp : Converted.sepParser conv p sep j (w1, !us.isEmpty) = _ := hp
      rw [sep_attempt] at hp
      cases hq : attempt p (sepThenFrom conv p sep) us j w1 with
      | ok x => obtain ⟨x, _⟩ := x; rw [hq] at hp; cases x <;> cases hp
      | ub => rfl
      | _ => rw [hq] at hp; cases hp
  · intro he
    cases he with
    | done hses ha =>
      rw [(many_outcome hr i (w, false) (o := .ok _) nofun).mpr (.done (session_sep hses) (inner_done.mpr ha))]
    | panic hses ha =>
      rw [(many_outcome hr i (w, false) (o := .panic) nofun).mpr (.panic (session_sep hses) (inner_panic.mpr ha))]
    | act_panic hses ha hg =>
      rw [(many_outcome hr i (w, false) (o := .panic) nofun).mpr
        (.act_panic (session_sep hses) (inner_act.mpr ⟨_, ha, rfl⟩) (by rw [Comb.withLocal, hg]; rfl))]
    | act_ub hses ha hg =>
      rw [(many_outcome hr i (w, false) (o := .ub) nofun).mpr
        (.act_ub (session_sep hses) (inner_act.mpr ⟨_, ha, rfl⟩) (by rw [Comb.withLocal, hg]; rfl))]
    | parser_panic hses ha hm hp =>
      rw [(many_outcome hr i (w, false) (o := .panic) nofun).mpr
        (.parser_panic (session_sep hses) (inner_next.mpr ha) hm (by rw [sep_attempt, hp]; rfl))]
    | parser_ub hses ha hm hp =>
      rw [(many_outcome hr i (w, false) (o := .ub) nofun).mpr
        (.parser_ub (session_sep hses) (inner_next.mpr ha) hm (by rw [sep_attempt, hp]; rfl))]

end Sep

end Chomp.Machine
