import Verif.Props.Twins
import Verif.Props.Unroll
import Verif.Props.Parsers

/-
C76: laws for rewriting parsers. By C75 they hold inside any other parser.
-/

namespace Chomp.Props

open Spec Unroll

/-! ### Single items -/

/-- `token(t)` is `satisfy(|c| c == t)`. -/
theorem C76_token [DecidableEq I] (v v' : Bool) (t : I) :
    Alike (σ := σ) true (Parsers.token v t) (Parsers.satisfy v' fun c => decide (c = t)) := by
  intro i w
  rw [Parsers.token_eq, Parsers.satisfy_eq]
  refine .ok _ _ _ ?_
  cases i.buf with
  | nil => exact .incomplete _
  | cons c r =>
    by_cases h : c = t
    · subst h; simp only [if_true, decide_true]; exact .data ..
    · simp only [h, if_neg (Ne.symm h), if_false, decide_false, Bool.false_eq_true]
      exact .error _ _ _ _ fun _ => rfl

/-- `not_token(t)` is `satisfy(|c| c != t)`. -/
theorem C76_not_token [DecidableEq I] (v v' : Bool) (t : I) :
    Alike (σ := σ) true (Parsers.notToken v t) (Parsers.satisfy v' fun c => decide (c ≠ t)) := by
  intro i w
  rw [Parsers.notToken_eq, Parsers.satisfy_eq]
  refine .ok _ _ _ ?_
  cases i.buf with
  | nil => exact .incomplete _
  | cons c r =>
    by_cases h : c = t
    · subst h
      simp only [if_true, ne_eq, not_true_eq_false, decide_false, Bool.false_eq_true, if_false]
      exact .error _ _ _ _ fun _ => rfl
    · simp only [h, if_neg (Ne.symm h), ne_eq, not_false_eq_true, decide_true, if_true]
      exact .data ..

/-- `any` is `satisfy(|_| true)`. -/
theorem C76_any (v : Bool) : Parsers.any (σ := σ) (I := I) = Parsers.satisfy v fun _ => true := by
  funext i w
  rw [Parsers.any_eq, Parsers.satisfy_eq]
  cases i.buf <;> rfl

/-- `satisfy_with(f, p)` is `satisfy(|c| p(f(c)))` with `f` mapped over the result. -/
theorem C76_satisfy_with (v : Bool) (f : I → T) (p : T → Bool) :
    Parsers.satisfyWith (σ := σ) v f p = Parser.map (Parsers.satisfy v fun c => p (f c)) f := by
  funext i w
  rw [Parsers.satisfyWith_eq, map_apply, Parsers.satisfy_eq]
  cases i.buf with
  | nil => rfl
  | cons c r => dsimp only; cases p (f c) <;> rfl

/-- `peek_next` is `look_ahead(any)`. -/
theorem C76_peek_next : Parsers.peekNext (σ := σ) (I := I) = Comb.lookAhead Parsers.any := by
  funext i w
  unfold Comb.lookAhead
  rw [Parsers.peekNext_eq, M.bind_apply, Parsers.any_eq]
  obtain ⟨m, b⟩ := i
  cases b <;> rfl

/-! ### Runs of items -/

theorem dropWhile_split (f : I → Bool) (b : List I) : b = b.takeWhile f ++ b.dropWhile f :=
  (List.takeWhile_append_dropWhile).symm

/-- `take_till(f)` is `take_while(|c| !f(c))`, followed by a look at the item it stopped at. -/
theorem C76_take_till (f : I → Bool) :
    Parsers.takeTill (σ := σ) f =
      Parser.bind id (Parsers.takeWhile fun c => !f c) fun x =>
        Parser.map (Comb.lookAhead Parsers.any) fun _ => x := by
  funext i w
  obtain ⟨m, b⟩ := i
  unfold Parser.bind
  rw [Parsers.takeTill_eq, M.bind_apply, Parsers.takeWhile_eq]
  dsimp only [Res.bind_ok]
  by_cases h : b.any f = true
  · have h1 : ¬ b.all (fun c => !f c) = true := by
      intro h2; rw [List.any_eq_not_all_not, h2] at h; cases h
    simp only [h, h1, if_true, and_false, if_false, ParseResult.bind_data, Bool.false_eq_true]
    rw [map_apply]
    unfold Comb.lookAhead
    rw [M.bind_apply, Parsers.any_eq]
    obtain ⟨c, r, hd⟩ : ∃ c r, b.dropWhile (fun c => !f c) = c :: r := by
      cases hd : b.dropWhile (fun c => !f c) with
      | cons c r => exact ⟨c, r, rfl⟩
      | nil =>
        refine absurd ?_ h1
        have := dropWhile_split (fun c => !f c) b
        rw [hd, List.append_nil] at this
        rw [this]
        exact List.all_takeWhile
    rw [hd]
    rfl
  · have h1 : b.all (fun c => !f c) = true := by
      rw [List.any_eq_not_all_not] at h; simpa using h
    cases m with
    | default => simp [h, h1, ParseResult.bind]
    | endOfInput =>
      have h2 : b.dropWhile (fun c => !f c) = [] := Parsers.dropWhile_of_all h1
      simp only [h, h1, Bool.false_eq_true, if_false, reduceCtorEq, false_and, ParseResult.bind_data, h2]
      rfl

/-- `scan` without a state is `take_till`. -/
theorem C76_scan (f : I → Bool) :
    Parsers.scan (σ := σ) () (fun _ c => if f c then some () else none) =
      Parsers.takeTill fun c => !f c := by
  funext i w
  obtain ⟨m, b⟩ := i
  have hf : ∀ x : List I, (∀ c ∈ x, f c = true) →
      x.foldlM (fun _ c => if f c then some () else none) () = some () := by
    intro x
    induction x with
    | nil => intro _; rfl
    | cons c x ih =>
      intro h
      rw [List.foldlM_cons, if_pos (h c (by simp))]
      exact ih fun a ha => h a (by simp [ha])
  by_cases h : ∀ c ∈ b, f c = true
  · rw [Parsers.scan_none w (hf b h), C15_take_till_none _ _ _ (fun a ha => by simp [h a ha])]
  · have hb := List.takeWhile_append_dropWhile (p := f) (l := b)
    have hx : ∀ c ∈ b.takeWhile f, f c = true := fun c hc => by
      have := List.all_takeWhile (p := f) (l := b)
      exact List.all_eq_true.mp this c hc
    cases hd : b.dropWhile f with
    | nil =>
      rw [hd, List.append_nil] at hb
      rw [hb] at hx
      exact absurd hx h
    | cons c r =>
      have hc : f c = false := by
        have := List.head?_dropWhile_not f b
        rw [hd] at this
        simpa using this
      rw [hd] at hb
      rw [← hb, Parsers.scan_stop (s' := ()) w (hf _ hx) (by simp [hc]),
        C15_take_till _ _ _ _ _ (fun a ha => by simp [hx a ha]) (by simp [hc])]

theorem skip_satisfy (v : Bool) (f : I → Bool) (m : Mode) (b : List I) (w : σ) :
    Comb.skipMany (Parsers.satisfy v f) ⟨m, b⟩ w =
      .ok (if m = .default ∧ b.all f then .incomplete 1 else .data ⟨m, b.dropWhile f⟩ (), w) := by
  induction b with
  | nil =>
    rw [(C71_skip_many _ (C71_keeps_mode (.satisfy v f))).1]
    cases m <;> rfl
  | cons c r ih =>
    rw [(C71_skip_many _ (C71_keeps_mode (.satisfy v f))).1]
    unfold Comb.or Parser.andThen
    rw [M.bind_apply, M.bind_apply, Parsers.satisfy_eq]
    dsimp only [Res.bind_ok]
    cases hc : f c with
    | true =>
      simp only [if_true, ParseResult.andThen, ParseResult.bind_data, ih, List.all_cons, hc,
        Bool.true_and, List.dropWhile_cons_of_pos]
      by_cases h : m = .default ∧ r.all f = true
      · obtain ⟨rfl, h⟩ := h
        simp only [h, and_self, if_true, Res.bind_ok]
        rfl
      · simp only [h, if_false, Res.bind_ok]
        rfl
    | false =>
      simp [ParseResult.andThen, hc, Parser.ret, Input.ret, ParseResult.bind]

/-- `take_while(f)` is what `skip_many(satisfy(f))` matched. -/
theorem C76_take_while (v : Bool) (f : I → Bool) :
    Parsers.takeWhile (σ := σ) f =
      Parser.map (Comb.matchedBy (Comb.skipMany (Parsers.satisfy v f))) Prod.fst := by
  funext i w
  obtain ⟨m, b⟩ := i
  rw [Parsers.takeWhile_eq, map_apply]
  have h := skip_satisfy v f m b w
  dsimp only
  split
  · rename_i hd
    rw [if_pos hd] at h
    rw [C22_matched_by_incomplete _ _ _ _ _ h]
    rfl
  · rename_i hd
    rw [if_neg hd] at h
    have hb := dropWhile_split f b
    have := C22_matched_by_ok (Comb.skipMany (Parsers.satisfy v f)) m m (b.takeWhile f) (b.dropWhile f)
      () w w (by rw [← hb]; exact h)
    rw [← hb] at this
    rw [this]
    rfl

/-- `take_while1(f)` is what `skip_many1(satisfy(f))` matched. -/
theorem C76_take_while1 (v : Bool) (f : I → Bool) :
    Parsers.takeWhile1 (σ := σ) v f =
      Parser.map (Comb.matchedBy (Comb.skipMany1 (Parsers.satisfy v f))) Prod.fst := by
  funext i w
  obtain ⟨m, b⟩ := i
  have h : Comb.skipMany1 (Parsers.satisfy v f) ⟨m, b⟩ w = .ok (match b with
      | [] => .incomplete 1
      | c :: _ =>
        if f c = false then .error b (Err.unexpected v)
        else if m = .default ∧ b.all f then .incomplete 1
        else .data ⟨m, b.dropWhile f⟩ (), w) := by
    rw [(C71_skip_many _ (C71_keeps_mode (.satisfy v f))).2]
    unfold Parser.andThen
    rw [M.bind_apply, Parsers.satisfy_eq]
    cases b with
    | nil => rfl
    | cons c r =>
      dsimp only [Res.bind_ok]
      cases hc : f c with
      | true =>
        simp only [if_true, ParseResult.andThen, ParseResult.bind_data, skip_satisfy, List.all_cons, hc,
          Bool.true_and, List.dropWhile_cons_of_pos, Bool.true_eq_false, if_false]
      | false => simp [ParseResult.andThen, ParseResult.bind]
  rw [Parsers.takeWhile1_eq, map_apply]
  dsimp only
  cases b with
  | nil =>
    rw [C22_matched_by_incomplete _ _ _ _ _ h]
    rfl
  | cons c r =>
    dsimp only at h ⊢
    by_cases hc : f c = false
    · simp only [hc, if_true] at h ⊢
      rw [C22_matched_by_err _ _ _ _ _ _ h]
      rfl
    · by_cases hd : m = .default ∧ (c :: r).all f = true
      · simp only [hc, hd, and_self, if_true] at h ⊢
        rw [C22_matched_by_incomplete _ _ _ _ _ h]
        rfl
      · simp only [hc, if_false, hd] at h ⊢
        have hb := dropWhile_split f (c :: r)
        have := C22_matched_by_ok (Comb.skipMany1 (Parsers.satisfy v f)) m m ((c :: r).takeWhile f)
          ((c :: r).dropWhile f) () w w (by rw [← hb]; exact h)
        rw [← hb] at this
        rw [this]
        rfl

/-! ### Combinators -/

/-- `matched_by(p)` without the slice is `p`. -/
theorem C76_matched_by {p : Parser σ I T E} (hp : Built everything p) :
    Parser.map (Comb.matchedBy p) Prod.snd = p := by
  funext i w
  rw [map_apply]
  match h : p i w with
  | .ok (.data i' t, w') =>
    obtain ⟨x, _, hm⟩ := C22_built hp i i' t w w' h
    rw [hm]; rfl
  | .ok (.error b e, w') => rw [C22_matched_by_err _ _ _ _ _ _ h]; rfl
  | .ok (.incomplete n, w') => rw [C22_matched_by_incomplete _ _ _ _ _ h]; rfl
  | .panic => unfold Comb.matchedBy; rw [M.bind_apply, h]; rfl
  | .ub => unfold Comb.matchedBy; rw [M.bind_apply, h]; rfl
  | .div => unfold Comb.matchedBy; rw [M.bind_apply, h]; rfl

/-- `many(p)` is `option(many1(p), [])`. -/
theorem C76_many (p : Parser σ I U E) (hp : KeepsMode p) :
    Comb.many (Collect.vec U) p = Comb.option (Comb.many1 (Collect.vec U) p) [] := by
  rw [C20_option_is_or, C71_many1]
  exact C71_many p hp

/-- `sep_by(p, sep)` is `option(sep_by1(p, sep), [])`. -/
theorem C76_sep_by (conv : N → E) (p : Parser σ I U E) (sep : Parser σ I V N) (hp : KeepsMode p)
    (hs : KeepsMode sep) : Comb.sepBy conv (Collect.vec U) p sep =
      Comb.option (Comb.sepBy1 conv (Collect.vec U) p sep) [] := by
  rw [C20_option_is_or]
  exact C71_sep_by conv p sep hp hs

/-- `skip_many(p)` is `many(p)` without the items, and likewise for `skip_many1`. -/
theorem C76_skip_many (p : Parser σ I U E) :
    Comb.skipMany p = Parser.map (Comb.many (Collect.vec U) p) (fun _ => ()) ∧
    Comb.skipMany1 p = Parser.map (Comb.many1 (Collect.vec U) p) (fun _ => ()) := by
  have h : Comb.skipMany p = Rep.core (Rep.unit U) p 0 none :=
    Rep.skipMany_eq (r := .full) True.intro p
  have h1 : Comb.skipMany1 p = Rep.core (Rep.unit U) p 1 none :=
    Rep.skipMany_eq (r := .from_ 1) True.intro p
  have h2 : Comb.many (Collect.vec U) p = Rep.core (Collect.vec U) p 0 none :=
    Rep.many_eq (r := .full) True.intro _ p
  have h3 : Comb.many1 (Collect.vec U) p = Rep.core (Collect.vec U) p 1 none :=
    Rep.many_eq (r := .from_ 1) True.intro _ p
  rw [h, h1, h2, h3, core_unit, core_unit]
  exact ⟨rfl, rfl⟩

/-- `count(a + b, p)` is `count(a, p)` and `count(b, p)`. -/
theorem C76_count (a b : Nat) (p : Parser σ I U E) :
    Comb.count (a + b) (Collect.vec U) p =
      Parser.bind id (Comb.count a (Collect.vec U) p) fun xs =>
        Parser.map (Comb.count b (Collect.vec U) p) fun ys => xs ++ ys := by
  induction a with
  | zero =>
    rw [(C71_count 0 p).1, Nat.zero_add]
    funext i w
    have : (fun ys : List U => [] ++ ys) = id := rfl
    unfold Parser.bind
    rw [M.bind_apply, show Parser.ret (E := E) ([] : List U) i w = .ok (.data i [], w) from rfl,
      Res.bind_ok]
    dsimp only
    rw [ParseResult.bind_data, map_apply, this]
    match Comb.count b (Collect.vec U) p i w with
    | .ok (.data i' t, w') => rfl
    | .ok (.error b e, w') => rfl
    | .ok (.incomplete n, w') => rfl
    | .panic => rfl
    | .ub => rfl
    | .div => rfl
  | succ a ih =>
    rw [Nat.succ_add, (C71_count (a + b) p).2, (C71_count a p).2, ih]
    funext i w
    unfold Parser.bind
    rw [M.bind_apply, M.bind_apply, M.bind_apply]
    match p i w with
    | .ok (.data i' t, w') =>
      simp only [Res.bind_ok, ParseResult.bind_data]
      rw [map_apply, map_apply, M.bind_apply]
      match Comb.count a (Collect.vec U) p i' w' with
      | .ok (.data i' ts, w') =>
        simp only [Res.bind_ok, Res.mapVal, mapR, ParseResult.bind_data]
        rw [map_apply, map_apply]
        match Comb.count b (Collect.vec U) p i' w' with
        | .ok (.data i' t, w') => rfl
        | .ok (.error b e, w') => rfl
        | .ok (.incomplete n, w') => rfl
        | .panic => rfl
        | .ub => rfl
        | .div => rfl
      | .ok (.error b e, w') => rfl
      | .ok (.incomplete n, w') => rfl
      | .panic => rfl
      | .ub => rfl
      | .div => rfl
    | .ok (.error b e, w') => rfl
    | .ok (.incomplete n, w') => rfl
    | .panic => rfl
    | .ub => rfl
    | .div => rfl

/-! ### Parsers without effects: running them again gives the same result -/

/-- An alternative which has been tried need not be tried again. -/
theorem C76_or_self (p : Parser Unit I T E) : Comb.or p p = p := by
  funext i w
  unfold Comb.or
  rw [M.bind_apply]
  match h : p i w with
  | .ok (.data i' t, w') => rfl
  | .ok (.error b e, w') => exact h
  | .ok (.incomplete n, w') =>
    dsimp only [Res.bind_ok]
    cases i.isLastSlice with
    | true => exact h
    | false => rfl
  | .panic => rfl
  | .ub => rfl
  | .div => rfl

/-- A common start of two alternatives can be parsed once. -/
theorem C76_or_factor (p : Parser Unit I T E) (hp : KeepsMode p) (f g : T → Parser Unit I U E) :
    Comb.or (Parser.bind id p f) (Parser.bind id p g) =
      Parser.bind id p fun t => Comb.or (f t) (g t) := by
  funext i w
  unfold Comb.or Parser.bind
  rw [M.bind_apply, M.bind_apply, M.bind_apply]
  match h : p i w with
  | .ok (.data i' t, w') =>
    obtain rfl : w' = w := rfl
    dsimp only [Res.bind_ok]
    rw [ParseResult.bind_data, ParseResult.bind_data, M.bind_apply]
    have hm : i'.isLastSlice = i.isLastSlice := by
      unfold Input.isLastSlice; rw [hp _ _ _ _ _ h]
    match f t i' w' with
    | .ok (.data i'' u, w'') => rfl
    | .ok (.error b e, w'') =>
      obtain rfl : w'' = w' := rfl
      dsimp only [Res.bind_ok]
      rw [M.bind_apply, h, Res.bind_ok, ParseResult.bind_data]
    | .ok (.incomplete n, w'') =>
      obtain rfl : w'' = w' := rfl
      dsimp only [Res.bind_ok]
      rw [hm]
      cases i.isLastSlice with
      | true =>
        simp only [if_true]
        rw [M.bind_apply, h, Res.bind_ok, ParseResult.bind_data]
      | false => rfl
    | .panic => rfl
    | .ub => rfl
    | .div => rfl
  | .ok (.error b e, w') =>
    obtain rfl : w' = w := rfl
    dsimp only [Res.bind_ok, ParseResult.bind, pure, StateT.pure]
    rw [M.bind_apply, h]; rfl
  | .ok (.incomplete n, w') =>
    obtain rfl : w' = w := rfl
    dsimp only [Res.bind_ok, ParseResult.bind, pure, StateT.pure]
    cases i.isLastSlice with
    | true =>
      simp only [if_true]
      rw [M.bind_apply, h]; rfl
    | false => rfl
  | .panic => rfl
  | .ub => rfl
  | .div => rfl

/-- Looking ahead for what is parsed next anyway changes nothing. -/
theorem C76_look_ahead_self (p : Parser Unit I T E) :
    Parser.andThen id (Comb.lookAhead p) p = p := by
  funext i w
  unfold Parser.andThen Comb.lookAhead
  rw [M.bind_apply, M.bind_apply]
  match h : p i w with
  | .ok (.data i' t, w') =>
    show ParseResult.bind id (.data i t) (fun i _ => p i) w = _
    rw [ParseResult.bind_data, h]
  | .ok (.error b e, w') => rfl
  | .ok (.incomplete n, w') => rfl
  | .panic => rfl
  | .ub => rfl
  | .div => rfl

namespace LawsExample

/-- A closure which counts: an error the first time, a value afterwards. -/
def second : Parser Nat Char Nat Nat := fun i n =>
  .ok (if n = 0 then .error i.buf n else .data i n, n + 1)

end LawsExample

/-- With effects, trying an alternative again is not the same as trying it once. -/
theorem C76_effects : ∃ p : Parser Nat Char Nat Nat, Comb.or p p ≠ p := by
  refine ⟨LawsExample.second, fun h => ?_⟩
  have := congrFun (congrFun h ⟨.endOfInput, []⟩) 0
  cases this

namespace LawsExample

/-- Words separated by commas, written in two ways; the errors are at the same positions. -/
example (v v' : Bool) : Alike (σ := Unit) true
    (Comb.sepBy1 id (Collect.vec (List UInt8)) (Parsers.takeWhile1 v (· ≠ 44)) (Parsers.token v 44))
    (Comb.sepBy1 id (Collect.vec (List UInt8))
      (Parser.map (Comb.matchedBy (Comb.skipMany1 (Parsers.satisfy v (· ≠ 44)))) Prod.fst)
      (Parsers.satisfy v' fun c => decide (c = 44))) :=
  C75_alike (.sepBy1 _ _ _ (by rw [← C76_take_while1]; exact .self _) (.alike (C76_token v v' 44)))

/-- `GET` and `GOT`, with the common `G` parsed once. -/
example (v : Bool) :
    Comb.or
      (Parser.bind id (Parsers.token (σ := Unit) v 'G') fun _ => Parsers.string v ['E', 'T'])
      (Parser.bind id (Parsers.token v 'G') fun _ => Parsers.string v ['O', 'T']) =
    Parser.bind id (Parsers.token v 'G') fun _ =>
      Comb.or (Parsers.string v ['E', 'T']) (Parsers.string v ['O', 'T']) :=
  C76_or_factor _ (C71_keeps_mode (.token v 'G')) _ _

/-- Five items, as two and three of them. -/
example (v : Bool) : Comb.count 5 (Collect.vec Char) (Parsers.satisfy (σ := Nat) v Char.isDigit) =
    Parser.bind id (Comb.count 2 (Collect.vec Char) (Parsers.satisfy v Char.isDigit)) fun xs =>
      Parser.map (Comb.count 3 (Collect.vec Char) (Parsers.satisfy v Char.isDigit)) fun ys => xs ++ ys :=
  C76_count 2 3 _

/-- The parsers of repetitions with separators, of `matched_by` and of `many`. -/
example (v : Bool) :
    Comb.sepBy id (Collect.vec Char) (Parsers.any (σ := Unit)) (Parsers.token v ',') =
      Comb.option (Comb.sepBy1 id (Collect.vec Char) Parsers.any (Parsers.token v ',')) [] ∧
    Comb.many (Collect.vec Char) (Parsers.token (σ := Unit) v 'a') =
      Comb.option (Comb.many1 (Collect.vec Char) (Parsers.token v 'a')) [] ∧
    Parser.map (Comb.matchedBy (Comb.skipMany (Parsers.token (σ := Unit) v 'a'))) Prod.snd =
      Comb.skipMany (Parsers.token v 'a') :=
  ⟨C76_sep_by _ _ _ (C71_keeps_mode .any) (C71_keeps_mode (.token v ',')),
    C76_many _ (C71_keeps_mode (.token v 'a')), C76_matched_by (.skipMany (.token v 'a'))⟩

end LawsExample

end Chomp.Props
