import Verif.Lemmas.Unroll
import Verif.Props.Built
import Verif.Spec.Unroll

/-
C71: the repetitions, written out by one item with `bind`, `map`, `or` and `ret`. The equations are
between parsers: remainders, errors, requests, effects of closures, panics and divergence agree.
-/

namespace Chomp.Props

open Spec Unroll

/-- All that the library can build keeps the mode. -/
theorem C71_keeps_mode {p : Parser σ I T E} (hp : Built everything p) : KeepsMode p :=
  fun i w i' t w' h => (C05_remainder hp i i' t w w' h).1

/-- `many(p)` is an item and `many(p)`, or nothing. -/
theorem C71_many (p : Parser σ I U E) (hp : KeepsMode p) :
    Comb.many (Collect.vec U) p =
      Comb.or
        (Parser.bind id p fun v => Parser.map (Comb.many (Collect.vec U) p) (v :: ·))
        (Parser.ret []) := by
  have h : Comb.many (Collect.vec U) p = Rep.core (Collect.vec U) p 0 none :=
    Rep.many_eq (r := .full) True.intro _ p
  rw [h]
  exact core_or p hp none (by simp)

/-- `many1(p)` is an item and `many(p)`. -/
theorem C71_many1 (p : Parser σ I U E) :
    Comb.many1 (Collect.vec U) p =
      Parser.bind id p fun v => Parser.map (Comb.many (Collect.vec U) p) (v :: ·) := by
  have h : Comb.many (Collect.vec U) p = Rep.core (Collect.vec U) p 0 none :=
    Rep.many_eq (r := .full) True.intro _ p
  have h1 : Comb.many1 (Collect.vec U) p = Rep.core (Collect.vec U) p 1 none :=
    Rep.many_eq (r := .from_ 1) True.intro _ p
  rw [h, h1]
  exact core_succ p 0 none (by simp)

/-- `many(n + 1 .., p)` is an item and `many(n .., p)`. -/
theorem C71_many_from (n : Nat) (p : Parser σ I U E) :
    Bounded.many (.from_ (n + 1)) (Collect.vec U) p =
      Parser.bind id p fun v =>
        Parser.map (Bounded.many (.from_ n) (Collect.vec U) p) (v :: ·) := by
  rw [Rep.many_eq (r := .from_ (n + 1)) True.intro, Rep.many_eq (r := .from_ n) True.intro]
  exact core_succ p n none (by simp)

/-- `count(0, p)` is `ret []`, `count(n + 1, p)` is an item and `count(n, p)`. -/
theorem C71_count (n : Nat) (p : Parser σ I U E) :
    Comb.count 0 (Collect.vec U) p = Parser.ret [] ∧
    Comb.count (n + 1) (Collect.vec U) p =
      Parser.bind id p fun v => Parser.map (Comb.count n (Collect.vec U) p) (v :: ·) := by
  have h : ∀ n, Comb.count n (Collect.vec U) p = Rep.core (Collect.vec U) p n (some n) := fun n =>
    Rep.many_eq (r := .exactly n) True.intro _ p
  refine ⟨?_, ?_⟩
  · funext i w
    rw [h, core_zero]
    rfl
  · rw [h, h]
    exact core_succ p n (some (n + 1)) (by simp)

/-- `many(a + 1 .. b + 1, p)` is an item and `many(a .. b, p)`. -/
theorem C71_many_range (a b : Nat) (hab : a < b) (p : Parser σ I U E) :
    Bounded.many (.range (a + 1) (b + 1)) (Collect.vec U) p =
      Parser.bind id p fun v =>
        Parser.map (Bounded.many (.range a b) (Collect.vec U) p) (v :: ·) := by
  rw [Rep.many_eq (r := .range (a + 1) (b + 1)) (show a + 1 ≤ b + 1 by omega),
    Rep.many_eq (r := .range a b) (show a ≤ b by omega)]
  exact core_succ p a (some (b + 1 - 1)) (by simp; omega)

/-- `many(.. 1, p)` is `ret []`, `many(.. n + 2, p)` is an item and `many(.. n + 1, p)`, or nothing. -/
theorem C71_many_to (n : Nat) (p : Parser σ I U E) (hp : KeepsMode p) :
    Bounded.many (.to 1) (Collect.vec U) p = Parser.ret [] ∧
    Bounded.many (.to (n + 2)) (Collect.vec U) p =
      Comb.or
        (Parser.bind id p fun v =>
          Parser.map (Bounded.many (.to (n + 1)) (Collect.vec U) p) (v :: ·))
        (Parser.ret []) := by
  have h : ∀ n, Bounded.many (.to n) (Collect.vec U) p =
      Rep.core (Collect.vec U) p 0 (some (n - 1)) := fun n =>
    Rep.many_eq (r := .to n) True.intro _ p
  refine ⟨?_, ?_⟩
  · funext i w
    rw [h, core_zero]
    rfl
  · rw [h, h]
    exact core_or p hp (some (n + 2 - 1)) (by simp)

/-- `sep_by1(p, sep)` is an item and `many` of a separator and an item. -/
theorem C71_sep_by1 (conv : N → E) (p : Parser σ I U E) (sep : Parser σ I V N) :
    Comb.sepBy1 conv (Collect.vec U) p sep =
      Parser.bind id p fun v =>
        Parser.map (Comb.many (Collect.vec U) (Parser.andThen conv sep p)) (v :: ·) := by
  have h : Comb.many (Collect.vec U) (Parser.andThen conv sep p) =
      Rep.core (Collect.vec U) (Parser.andThen conv sep p) 0 none :=
    Rep.many_eq (r := .full) True.intro _ _
  funext i w
  unfold Comb.sepBy1
  rw [Sep.newLocal_eq, Rep.many_eq (by exact True.intro), h]
  refine (sep_unroll conv p sep 1 i w).trans ?_
  unfold Parser.bind
  rw [M.bind_apply]
  cases hp : p i w with
  | ok x =>
    obtain ⟨x, w1⟩ := x
    cases x with
    | data b v =>
      simp only [Res.bind_ok, Nat.sub_self, ParseResult.bind_data]
      rw [map_apply]
    | error b e => simp [ParseResult.bind]
    | incomplete n => simp [ParseResult.bind, Rep.final]
  | _ => rfl

/-- `sep_by(p, sep)` is `sep_by1(p, sep)`, or nothing. -/
theorem C71_sep_by (conv : N → E) (p : Parser σ I U E) (sep : Parser σ I V N)
    (hp : KeepsMode p) (hs : KeepsMode sep) :
    Comb.sepBy conv (Collect.vec U) p sep =
      Comb.or (Comb.sepBy1 conv (Collect.vec U) p sep) (Parser.ret []) := by
  have h : Comb.many (Collect.vec U) (Parser.andThen conv sep p) =
      Rep.core (Collect.vec U) (Parser.andThen conv sep p) 0 none :=
    Rep.many_eq (r := .full) True.intro _ _
  have hq : KeepsMode (Parser.andThen conv sep p) := by
    intro i w i' t w' h
    rw [← sepThen_eq] at h
    unfold sepThen at h
    cases hs1 : sep i w with
    | ok x =>
      obtain ⟨x, w1⟩ := x
      rw [hs1] at h
      cases x with
      | data b v => exact (hp _ _ _ _ _ h).trans (hs _ _ _ _ _ hs1)
      | _ => simp at h
    | _ => rw [hs1] at h; simp at h
  rw [C71_sep_by1, h]
  funext i w
  unfold Comb.sepBy
  rw [Sep.newLocal_eq, Rep.many_eq (by exact True.intro)]
  refine (sep_unroll conv p sep 0 i w).trans ?_
  unfold Comb.or Parser.bind
  rw [M.bind_apply, M.bind_apply]
  cases hr : p i w with
  | ok x =>
    obtain ⟨x, w1⟩ := x
    cases x with
    | data b v =>
      have hm := hp _ _ _ _ _ hr
      simp only [Res.bind_ok, ParseResult.bind_data]
      rw [map_apply]
      cases hc : Rep.core (Collect.vec U) (Parser.andThen conv sep p) 0 none b w1 with
      | ok y =>
        obtain ⟨y, w2⟩ := y
        cases y with
        | data b' vs => simp [Res.mapVal, mapR, Input.ret]
        | error b' e => exact absurd hc core_error
        | incomplete n =>
          cases hi' : i.mode with
          | default => simp [Res.mapVal, mapR, Input.isLastSlice, hi', Input.incomplete]
          | endOfInput => exact absurd hc (core_last hq (hm.trans hi'))
      | _ => simp [Res.mapVal]
    | error b e => simp [ParseResult.bind, Parser.ret, Input.ret]
    | incomplete n =>
      obtain ⟨m, b⟩ := i
      cases m <;>
        simp [ParseResult.bind, Rep.final, Input.isLastSlice, Parser.ret, Input.ret, Input.incomplete]
  | _ => rfl

/-- `skip_many(p)` is an item and `skip_many(p)`, or nothing; `skip_many1(p)` is an item and
`skip_many(p)`. -/
theorem C71_skip_many (p : Parser σ I U E) (hp : KeepsMode p) :
    Comb.skipMany p = Comb.or (Parser.andThen id p (Comb.skipMany p)) (Parser.ret ()) ∧
    Comb.skipMany1 p = Parser.andThen id p (Comb.skipMany p) := by
  have h : Comb.skipMany p = Rep.core (Rep.unit U) p 0 none :=
    Rep.skipMany_eq (r := .full) True.intro p
  have h1 : Comb.skipMany1 p = Rep.core (Rep.unit U) p 1 none :=
    Rep.skipMany_eq (r := .from_ 1) True.intro p
  rw [h, h1, core_unit, core_unit]
  refine ⟨?_, ?_⟩
  · conv => lhs; rw [core_or p hp none (by simp)]
    rw [drop_or, drop_bind]
    rfl
  · conv => lhs; rw [core_succ p 0 none (by simp)]
    rw [drop_bind]
    rfl

/-- `many_till(p, end)` is the end, or an item and `many_till(p, end)`, where `end` comes to a verdict on
partial input. (Without this, `or` would ask for more input where `many_till` goes on to an item: see
C71_many_till_differs.) -/
theorem C71_many_till (conv : N → E) (p : Parser σ I U E) (end_ : Parser σ I V N)
    (he : Decides end_) :
    Comb.manyTill (Collect.vec U) p end_ =
      Comb.or (Parser.andThen conv end_ (Parser.ret []))
        (Parser.bind id p fun v =>
          Parser.map (Comb.manyTill (Collect.vec U) p end_) (v :: ·)) := by
  funext i w
  rw [till_bind]
  unfold Comb.or
  rw [M.bind_apply]
  unfold Parser.andThen
  rw [M.bind_apply]
  cases hr : end_ i w with
  | ok x =>
    obtain ⟨x, w1⟩ := x
    cases x with
    | data b v => rfl
    | error b e => rfl
    | incomplete n =>
      obtain ⟨m, b⟩ := i
      cases m with
      | default => exact absurd hr (he b w n w1)
      | endOfInput => rfl
  | _ => rfl

/-- `many_till(0 .., p, end)` is `many_till(p, end)`; `many_till(n + 1 .., p, end)` is an item and
`many_till(n .., p, end)`. -/
theorem C71_many_till_from (n : Nat) (p : Parser σ I U E) (end_ : Parser σ I V N) :
    Bounded.manyTill (.from_ 0) (Collect.vec U) p end_ = Comb.manyTill (Collect.vec U) p end_ ∧
    Bounded.manyTill (.from_ (n + 1)) (Collect.vec U) p end_ =
      Parser.bind id p fun v =>
        Parser.map (Bounded.manyTill (.from_ n) (Collect.vec U) p end_) (v :: ·) := by
  refine ⟨?_, ?_⟩
  · rw [Till.manyTill_eq (r := .from_ 0) True.intro]
    unfold Comb.manyTill
    rw [Till.manyTill_eq (by exact True.intro)]
    rfl
  · rw [Till.manyTill_eq (r := .from_ (n + 1)) True.intro, Till.manyTill_eq (r := .from_ n) True.intro]
    exact till_succ p end_ _ _ n none nofun

/-- `many_till(0, p, end)` is the end, and incomplete without it; `many_till(n + 1, p, end)` is an item and
`many_till(n, p, end)`. -/
theorem C71_many_till_exactly (n : Nat) (p : Parser σ I U E) (end_ : Parser σ I V N) :
    (∀ i w, Bounded.manyTill (.exactly 0) (Collect.vec U) p end_ i w = end_ i w >>= fun x =>
      .ok (match x.1 with | .data b _ => .data b [] | _ => .incomplete 1, x.2)) ∧
    Bounded.manyTill (.exactly (n + 1)) (Collect.vec U) p end_ =
      Parser.bind id p fun v =>
        Parser.map (Bounded.manyTill (.exactly n) (Collect.vec U) p end_) (v :: ·) := by
  refine ⟨fun i w => ?_, ?_⟩
  · rw [Till.manyTill_eq (r := .exactly 0) True.intro]
    refine (till_limit p end_ 1 _ rfl i w).trans ?_
    rw [Till.test_one]
    cases end_ i w with
    | ok x => obtain ⟨x, w1⟩ := x; cases x <;> rfl
    | _ => rfl
  · rw [Till.manyTill_eq (r := .exactly (n + 1)) True.intro, Till.manyTill_eq (r := .exactly n) True.intro]
    exact till_succ p end_ _ _ n (some (n + 1)) nofun

/-- `many_till(a + 1 .. b + 1, p, end)` is an item and `many_till(a .. b, p, end)`. `many_till(0 .. n + 2, p, end)`
is the end, or without it an item and `many_till(0 .. n + 1, p, end)`; and `many_till(0 .. 1, p, end)` is the end,
which is tried once more if it is not there, and incomplete then. -/
theorem C71_many_till_range (a b n : Nat) (hab : a < b) (p : Parser σ I U E) (end_ : Parser σ I V N) :
    Bounded.manyTill (.range (a + 1) (b + 1)) (Collect.vec U) p end_ =
      (Parser.bind id p fun v =>
        Parser.map (Bounded.manyTill (.range a b) (Collect.vec U) p end_) (v :: ·)) ∧
    (∀ i w, Bounded.manyTill (.range 0 (n + 2)) (Collect.vec U) p end_ i w = end_ i w >>= fun x =>
      match x.1 with
      | .data b _ => .ok (.data b [], x.2)
      | _ => Parser.bind id p
          (fun v => Parser.map (Bounded.manyTill (.range 0 (n + 1)) (Collect.vec U) p end_) (v :: ·)) i x.2) ∧
    (∀ i w, Bounded.manyTill (.range 0 1) (Collect.vec U) p end_ i w = end_ i w >>= fun x =>
      match x.1 with
      | .data b _ => .ok (.data b [], x.2)
      | _ => end_ i x.2 >>= fun y =>
          .ok (match y.1 with | .data b _ => .data b [] | _ => .incomplete 1, y.2)) := by
  refine ⟨?_, fun i w => ?_, fun i w => ?_⟩
  · rw [Till.manyTill_eq (r := .range (a + 1) (b + 1)) (show a + 1 ≤ b + 1 by omega),
      Till.manyTill_eq (r := .range a b) (show a ≤ b by omega)]
    exact till_succ p end_ _ _ a (some (b + 1 - 1)) (by simp; omega)
  · rw [Till.manyTill_eq (r := .range 0 (n + 2)) (Nat.zero_le _),
      Till.manyTill_eq (r := .range 0 (n + 1)) (Nat.zero_le _)]
    exact till_zero p end_ _ _ (some (n + 1)) nofun rfl i w
  · rw [Till.manyTill_eq (r := .range 0 1) (Nat.zero_le _)]
    refine (till_limit p end_ 2 _ rfl i w).trans ?_
    rw [Till.test]
    dsimp only
    cases end_ i w with
    | ok x =>
      obtain ⟨x, w1⟩ := x
      cases x with
      | data b v => rfl
      | _ =>
        simp only [Res.bind_ok]
        rw [Till.test_one]
        cases end_ i w1 with
        | ok y => obtain ⟨y, w2⟩ := y; cases y <;> rfl
        | _ => rfl
    | _ => rfl

/-- `skip_many` with a range, in the same way. -/
theorem C71_skip_many_bounded (n a b : Nat) (hab : a < b) (p : Parser σ I U E) :
    Bounded.skipMany (.from_ 0) p = Comb.skipMany p ∧
    Bounded.skipMany (.from_ (n + 1)) p = Parser.andThen id p (Bounded.skipMany (.from_ n) p) ∧
    Bounded.skipMany (.range (a + 1) (b + 1)) p = Parser.andThen id p (Bounded.skipMany (.range a b) p) ∧
    Bounded.skipMany (.to 1) p = Parser.ret () ∧
    (KeepsMode p → Bounded.skipMany (.to (n + 2)) p =
      Comb.or (Parser.andThen id p (Bounded.skipMany (.to (n + 1)) p)) (Parser.ret ())) := by
  have e1 : ∀ n, Bounded.skipMany (.from_ n) p = Rep.core (Rep.unit U) p n none := fun n =>
    Rep.skipMany_eq (r := .from_ n) True.intro p
  have e2 : ∀ n, Bounded.skipMany (.to n) p = Rep.core (Rep.unit U) p 0 (some (n - 1)) := fun n =>
    Rep.skipMany_eq (r := .to n) True.intro p
  refine ⟨?_, ?_, ?_, ?_, fun hp => ?_⟩
  · rw [e1]
    exact (Rep.skipMany_eq (r := .full) True.intro p).symm
  · rw [e1, e1, core_unit, core_unit]
    conv => lhs; rw [core_succ p n none (by simp)]
    rw [drop_bind]
    rfl
  · rw [Rep.skipMany_eq (r := .range (a + 1) (b + 1)) (show a + 1 ≤ b + 1 - 1 by omega),
      Rep.skipMany_eq (r := .range a b) (show a ≤ b - 1 by omega), core_unit, core_unit]
    conv => lhs; rw [show Rep.min (.range (a + 1) (b + 1)) = a + 1 from rfl,
      show Rep.max (.range (a + 1) (b + 1)) = some (b + 1 - 1) from rfl,
      core_succ p a (some (b + 1 - 1)) (by simp; omega)]
    rw [drop_bind]
    rfl
  · rw [e2, core_unit]
    funext i w
    rw [map_apply, core_zero]
    rfl
  · rw [e2, e2, core_unit, core_unit]
    conv => lhs; rw [core_or p hp (some (n + 2 - 1)) (by simp)]
    rw [drop_or, drop_bind]
    rfl

/-- `many_till` takes an end which wants more input for no end: before the end `ab`, and of the partial
input `a`, it tries the item `x`, and fails. -/
theorem C71_many_till_differs :
    (Comb.manyTill (Collect.vec UInt8) (Parsers.token true 120) (Parsers.string true [97, 98]) :
      Parser Unit UInt8 (List UInt8) (Error UInt8)) ≠
      Comb.or (Parser.andThen id (Parsers.string true [97, 98]) (Parser.ret []))
        (Parser.bind id (Parsers.token true 120) fun v =>
          Parser.map (Comb.manyTill (Collect.vec UInt8) (Parsers.token true 120)
            (Parsers.string true [97, 98])) (v :: ·)) := by
  intro h
  have h := congrFun (congrFun h ⟨.default, [97]⟩) ()
  rw [till_unroll] at h
  revert h
  have h1 : (Parsers.string true [97, 98] : Parser Unit UInt8 (List UInt8) (Error UInt8))
    ⟨.default, [97]⟩ () = .ok (.incomplete 1, ()) := rfl
  have h2 : (Parsers.token true 120 : Parser Unit UInt8 UInt8 (Error UInt8))
    ⟨.default, [97]⟩ () = .ok (.error [97] (.expected 120), ()) := rfl
  have h3 : ∀ g, Comb.or (Parser.andThen id (Parsers.string true [97, 98]) (Parser.ret [])) g
    (⟨.default, [97]⟩ : Input UInt8) () = .ok ((.incomplete 1 : ParseResult UInt8 (List UInt8) (Error UInt8)), ()) := fun _ => rfl
  simp [h1, h2, h3]

namespace UnrollExample

/-- The letter `a`. -/
def a : Parser Unit UInt8 UInt8 (Error UInt8) := Parsers.token true 97

theorem keeps : KeepsMode a := C71_keeps_mode (.token true 97)

/-- By C71_many, `many(a)` takes the two letters of `aab` and leaves `b`. -/
example : Comb.many (Collect.vec UInt8) a ⟨.default, [97, 97, 98]⟩ () =
    .ok (.data ⟨.default, [98]⟩ [97, 97], ()) := by
  rw [C71_many a keeps]
  have h : ∀ g : Parser Unit UInt8 (List UInt8) (Error UInt8),
      Parser.map g (97 :: ·) ⟨.default, [97, 98]⟩ () = .ok (.data ⟨.default, [98]⟩ [97, 97], ()) →
      Comb.or (Parser.bind id a fun v => Parser.map g (v :: ·)) (Parser.ret [])
        ⟨.default, [97, 97, 98]⟩ () = .ok (.data ⟨.default, [98]⟩ [97, 97], ()) := by
    intro g hg
    show Res.bind (Res.bind (Parser.map g (97 :: ·) ⟨.default, [97, 98]⟩ ()) _) _ = _
    rw [hg]
    rfl
  refine h _ ?_
  rw [C71_many a keeps]
  have h : ∀ g : Parser Unit UInt8 (List UInt8) (Error UInt8),
      g ⟨.default, [98]⟩ () = .ok (.data ⟨.default, [98]⟩ [], ()) →
      Parser.map (Comb.or (Parser.bind id a fun v => Parser.map g (v :: ·)) (Parser.ret [])) (97 :: ·)
        ⟨.default, [97, 98]⟩ () = .ok (.data ⟨.default, [98]⟩ [97, 97], ()) := by
    intro g hg
    show Res.bind (Res.bind (Res.bind (Res.bind (g ⟨.default, [98]⟩ ()) _) _) _) _ = _
    rw [hg]
    rfl
  refine h _ ?_
  rw [C71_many a keeps]
  rfl

/-- `eof` comes to a verdict on partial input. -/
example : Decides (Parsers.eof (σ := Unit) (I := UInt8) true) := by
  intro b w n w' h
  simp [Parsers.eof, Input.isLastSlice] at h
  cases h

/-- With `count(2, ..)` both letters are required. -/
example : Comb.count 2 (Collect.vec UInt8) a ⟨.default, [97, 98]⟩ () =
    .ok (.error [98] (.expected 97), ()) := by
  rw [(C71_count 1 a).2, (C71_count 0 a).2, (C71_count 0 a).1]
  rfl

/-- The letter `b`. -/
def b : Parser Unit UInt8 UInt8 (Error UInt8) := Parsers.token true 98

/-- `many_till(2, a, b)` takes `aab`. -/
example : Bounded.manyTill (.exactly 2) (Collect.vec UInt8) a b ⟨.default, [97, 97, 98]⟩ () =
    .ok (.data ⟨.default, []⟩ [97, 97], ()) := by
  rw [(C71_many_till_exactly 1 a b).2, (C71_many_till_exactly 0 a b).2]
  have h := (C71_many_till_exactly 0 a b).1 ⟨.default, [98]⟩ ()
  have hg : ∀ g : Parser Unit UInt8 (List UInt8) (Error UInt8),
      g ⟨.default, [98]⟩ () = .ok (.data ⟨.default, []⟩ [], ()) →
      Parser.bind id a (fun v => Parser.map (Parser.bind id a fun v => Parser.map g (v :: ·)) (v :: ·))
        ⟨.default, [97, 97, 98]⟩ () = .ok (.data ⟨.default, []⟩ [97, 97], ()) := by
    intro g hg
    show Res.bind (Res.bind (Res.bind (Res.bind (g ⟨.default, [98]⟩ ()) _) _) _) _ = _
    rw [hg]
    rfl
  exact hg _ h

/-- `many_till(0..1, a, b)` of `ab`: no room for an item, and the end is not there. -/
example : Bounded.manyTill (.range 0 1) (Collect.vec UInt8) a b ⟨.default, [97, 98]⟩ () =
    .ok (.incomplete 1, ()) :=
  (C71_many_till_range 0 1 0 (by decide) a b).2.2 _ _

/-- `skip_many(1..2, a)` takes one letter of `aab`. -/
example : Bounded.skipMany (.range 1 2) a ⟨.default, [97, 97, 98]⟩ () =
    .ok (.data ⟨.default, [97, 98]⟩ (), ()) := by
  rw [(C71_skip_many_bounded 0 0 1 (by decide) a).2.2.1]
  have h : Bounded.skipMany (.range 0 1) a = Parser.ret () := by
    rw [Rep.skipMany_eq (r := .range 0 1) (Nat.zero_le 0) a]
    funext i w
    show loop _ _ w = _
    rw [loop_apply]
    rfl
  rw [h]
  rfl

end UnrollExample

end Chomp.Props
