import Verif.Lemmas.Built

/-
Why subtractions of parsers and combinators are the same in every build: they do not go below zero.
-/

namespace Chomp

theorem usub_build (B C : Build) {a b : Nat} (h : b ≤ a) : @usub B a b = @usub C a b := by
  rw [@usub_ok B _ _ h, @usub_ok C _ _ h]

namespace Bounded

theorem decSat_build (B C : Build) (x : Nat) : @decSat B σ x = @decSat C σ x := by
  unfold decSat
  by_cases h : x = 0
  · simp [h]
  · rw [usub_build B C (by omega)]

theorem dec_build (B C : Build) {x : Nat} (h : (x == 0) = false) : @dec B σ x = @dec C σ x := by
  have h : x ≠ 0 := by simpa using h
  unfold dec
  rw [usub_build B C (by omega)]

theorem iterNext_congr {h h' : Hooks σ D} (f : Parser σ I U E) (hp : ∀ d, h.pre d = h'.pre d)
    (ho : ∀ d, h.pre d = false → h.on d = h'.on d) : iterNext h f = iterNext h' f := by
  funext it
  unfold iterNext
  rw [← hp]
  cases hd : h.pre it.data with
  | true => rfl
  | false => rw [ho _ hd]

theorem runIter_build {h h' : Hooks σ D} (k : Driver σ U T) (d : D)
    (fin : T → Input I → D → EndState I E → ParseResult I T E) (f : Parser σ I U E)
    (hs : h.sizeHint = h'.sizeHint) (hp : ∀ d, h.pre d = h'.pre d)
    (ho : ∀ d, h.pre d = false → h.on d = h'.on d) :
    runIter k d h fin f = runIter k d h' fin f := by
  unfold runIter
  rw [iterNext_congr f hp ho, hs]

theorem iterTillNext_congr {h h' : HooksTill σ I E D} (f : Parser σ I U E) (hp : h.pre = h'.pre)
    (ho : ∀ it w it' w', h.pre it w = .ok ((false, it'), w') → h.on it'.data = h'.on it'.data) :
    iterTillNext h f = iterTillNext h' f := by
  funext it w
  unfold iterTillNext
  rw [← hp, M.bind_apply, M.bind_apply]
  cases hx : h.pre it w with
  | ok r =>
    obtain ⟨⟨stop, it'⟩, w'⟩ := r
    cases stop with
    | true => rfl
    | false => rw [Res.bind_ok, Res.bind_ok]; dsimp only; rw [ho _ _ _ _ hx]
  | _ => rfl

theorem runIterTill_build {h h' : HooksTill σ I E D} (k : Driver σ U T) (d : D)
    (fin : T → Input I → D → EndStateTill I E → M σ (ParseResult I T E)) (f : Parser σ I U E)
    (hs : h.sizeHint = h'.sizeHint) (hp : h.pre = h'.pre)
    (ho : ∀ it w it' w', h.pre it w = .ok ((false, it'), w') → h.on it'.data = h'.on it'.data) :
    runIterTill k d h fin f = runIterTill k d h' fin f := by
  unfold runIterTill
  rw [iterTillNext_congr f hp ho, hs]

theorem manyWith_build (B C : Build) (r : Range) (k : Driver σ U T) (f : Parser σ I U E) :
    @manyWith B σ U T I E r k f = @manyWith C σ U T I E r k f := by
  cases r with
  | range a b =>
    funext i
    show @manyRange B σ U T I E a b k f i = @manyRange C σ U T I E a b k f i
    unfold manyRange
    rw [runIter_build (h := @hooksRange B σ) (h' := @hooksRange C σ) k _ _ _ rfl (fun _ => rfl)]
    intro d hd
    unfold hooksRange
    dsimp only
    rw [decSat_build B C, dec_build B C hd]
  | from_ n =>
    unfold manyWith manyFrom
    exact runIter_build (h := @hooksFrom B σ) (h' := @hooksFrom C σ) k _ _ _ rfl (fun _ => rfl)
      fun d _ => decSat_build B C d
  | full => rfl
  | to n =>
    unfold manyWith manyTo
    exact runIter_build (h := @hooksTo B σ) (h' := @hooksTo C σ) k _ _ _ rfl (fun _ => rfl)
      fun d hd => dec_build B C hd
  | exactly n =>
    unfold manyWith manyExactly
    exact runIter_build (h := @hooksExactly B σ) (h' := @hooksExactly C σ) k _ _ _ rfl (fun _ => rfl)
      fun d hd => dec_build B C hd

theorem skipMany_build (B C : Build) (r : Range) (f : Parser σ I T E) :
    @skipMany B σ I T E r f = @skipMany C σ I T E r f := by
  cases r with
  | range a b =>
    funext i
    show @skipManyRange B σ I T E a b f i = @skipManyRange C σ I T E a b f i
    unfold skipManyRange
    congr 2
    funext s
    obtain ⟨i, min, max⟩ := s
    cases h : max == 0 with
    | true => dsimp only; rw [if_pos h, if_pos h]
    | false => dsimp only; rw [decSat_build B C, dec_build B C h]
  | from_ n =>
    funext i
    show @skipManyFrom B σ I T E n f i = @skipManyFrom C σ I T E n f i
    unfold skipManyFrom
    congr 1
    funext s
    obtain ⟨i, min⟩ := s
    dsimp only
    rw [decSat_build B C]
  | full => rfl
  | to n =>
    funext i
    show @skipManyTo B σ I T E n f i = @skipManyTo C σ I T E n f i
    unfold skipManyTo
    congr 1
    funext s
    obtain ⟨i, max⟩ := s
    cases h : max == 0 with
    | true => dsimp only; rw [if_pos h, if_pos h]
    | false => dsimp only; rw [dec_build B C h]
  | exactly n =>
    funext i
    show @skipManyExactly B σ I T E n f i = @skipManyExactly C σ I T E n f i
    unfold skipManyExactly
    congr 1
    funext s
    obtain ⟨i, max⟩ := s
    cases h : max == 0 with
    | true => dsimp only; rw [if_pos h, if_pos h]
    | false => dsimp only; rw [dec_build B C h]

theorem manyTillWith_build (B C : Build) (r : Range) (k : Driver σ U T) (p : Parser σ I U E)
    (end_ : Parser σ I V N) :
    @manyTillWith B σ U T I E V N r k p end_ = @manyTillWith C σ U T I E V N r k p end_ := by
  cases r with
  | range a b =>
    funext i
    show @manyTillRange B σ U T I E V N a b k p end_ i = @manyTillRange C σ U T I E V N a b k p end_ i
    unfold manyTillRange
    rw [runIterTill_build (h := @hooksTillRange B σ I V N E end_)
      (h' := @hooksTillRange C σ I V N E end_) k _ _ _ rfl rfl]
    intro it w it' w' h
    dsimp only [hooksTillRange] at h ⊢
    rw [decSat_build B C, dec_build B C]
    split at h
    all_goals
      obtain ⟨⟨s, it1⟩, w1, _, h⟩ := M.bind_eq_ok.1 h
      dsimp only at h
      split at h
      · cases h
      · split at h
        · obtain ⟨x, w2, _, h⟩ := M.bind_eq_ok.1 h
          cases h
        · next hx => cases h; simpa using hx
  | from_ n =>
    unfold manyTillWith manyTillFrom
    exact runIterTill_build (h := @hooksTillFrom B σ I V N E end_)
      (h' := @hooksTillFrom C σ I V N E end_) k _ _ _ rfl rfl fun _ _ it' _ _ => decSat_build B C it'.data
  | full => rfl
  | to n =>
    unfold manyTillWith manyTillTo
    refine runIterTill_build (h := @hooksTillTo B σ I V N E end_)
      (h' := @hooksTillTo C σ I V N E end_) k _ _ _ rfl rfl fun it w it' w' h => dec_build B C ?_
    obtain ⟨⟨s, it1⟩, w1, _, h⟩ := M.bind_eq_ok.1 h
    dsimp only at h
    split at h
    · cases h
    · have := congrArg (fun x : Res ((Bool × _) × σ) => match x with | .ok ((a, b), _) => some (a, b) | _ => none) h
      simp only [pure, StateT.pure, Option.some.injEq, Prod.mk.injEq] at this
      rw [← this.2, this.1]
  | exactly n =>
    unfold manyTillWith manyTillExactly
    refine runIterTill_build (h := @hooksTillExactly B σ I V N E end_)
      (h' := @hooksTillExactly C σ I V N E end_) k _ _ _ rfl rfl fun it w it' w' h => dec_build B C ?_
    dsimp only [hooksTillExactly] at h
    split at h
    · obtain ⟨x, w2, _, h⟩ := M.bind_eq_ok.1 h
      cases h
    · next hx => cases h; simpa using hx

end Bounded

namespace Parsers

theorem take_build (B C : Build) (n : Nat) : @take B σ I n = @take C σ I n := by
  funext i
  unfold take
  dsimp only
  split
  · rfl
  · rw [usub_build B C (by omega)]

theorem string_build [DecidableEq I] (B C : Build) (v : Bool) (s : List I) :
    @string B I σ _ v s = @string C I σ _ v s := by
  funext i
  unfold string
  dsimp only
  split
  · rw [usub_build B C (by omega)]
  · rfl

end Parsers

theorem Closures.string_build (B C : Build) (ne : I → I → M σ Bool) (v : Bool) (s : List I) :
    @Closures.string B I σ ne v s = @Closures.string C I σ ne v s := by
  funext i
  unfold Closures.string
  dsimp only
  split
  · rw [usub_build B C (by omega)]
  · rfl

namespace Comb

/-- What `p` leaves is not longer than what it was given. -/
def Shrinks (p : Parser σ I T E) : Prop :=
  ∀ i w i' t w', p i w = .ok (.data i' t, w') → i'.buf.length ≤ i.buf.length

theorem matchedBy_build (B C : Build) {p : Parser σ I T E} (hp : Shrinks p) :
    @matchedBy B σ I T E p = @matchedBy C σ I T E p := by
  funext i w
  unfold matchedBy
  rw [M.bind_apply, M.bind_apply]
  cases h : p i w with
  | ok r =>
    obtain ⟨r, w'⟩ := r
    cases r with
    | data b t =>
      rw [Res.bind_ok, Res.bind_ok]
      dsimp only
      rw [usub_build B C (hp _ _ _ _ _ h)]
    | _ => rfl
  | _ => rfl

theorem count_build (B C : Build) (n : Nat) (c : Collect U T) (p : Parser σ I U E) :
    @count B U T σ I E n c p = @count C U T σ I E n c p :=
  Bounded.manyWith_build B C (.exactly n) c.driver p

theorem many_build (B C : Build) (c : Collect U T) (p : Parser σ I U E) :
    @many B U T σ I E c p = @many C U T σ I E c p :=
  Bounded.manyWith_build B C .full c.driver p

theorem many1_build (B C : Build) (c : Collect U T) (p : Parser σ I U E) :
    @many1 B U T σ I E c p = @many1 C U T σ I E c p :=
  Bounded.manyWith_build B C (.from_ 1) c.driver p

theorem sepBy_build (B C : Build) (conv : N → E) (c : Collect U T) (p : Parser σ I U E)
    (sep : Parser σ I V N) :
    @sepBy B N E U T σ I V conv c p sep = @sepBy C N E U T σ I V conv c p sep :=
  funext fun i => congrArg (newLocal false)
    (congrFun (Bounded.manyWith_build B C .full c.driver (sepParser conv p sep)) i)

theorem sepBy1_build (B C : Build) (conv : N → E) (c : Collect U T) (p : Parser σ I U E)
    (sep : Parser σ I V N) :
    @sepBy1 B N E U T σ I V conv c p sep = @sepBy1 C N E U T σ I V conv c p sep :=
  funext fun i => congrArg (newLocal false)
    (congrFun (Bounded.manyWith_build B C (.from_ 1) c.driver (sepParser conv p sep)) i)

theorem manyTill_build (B C : Build) (c : Collect U T) (p : Parser σ I U E) (end_ : Parser σ I V N) :
    @manyTill B U T σ I E V N c p end_ = @manyTill C U T σ I E V N c p end_ :=
  Bounded.manyTillWith_build B C .full c.driver p end_

theorem skipMany_build (B C : Build) (p : Parser σ I T E) :
    @skipMany B σ I T E p = @skipMany C σ I T E p := Bounded.skipMany_build B C .full p

theorem skipMany1_build (B C : Build) (p : Parser σ I T E) :
    @skipMany1 B σ I T E p = @skipMany1 C σ I T E p := Bounded.skipMany_build B C (.from_ 1) p

theorem boundedMany_build (B C : Build) (r) (c : Collect U T) (p : Parser σ I U E) :
    @Bounded.many B U T σ I E r c p = @Bounded.many C U T σ I E r c p :=
  Bounded.manyWith_build B C r c.driver p

theorem boundedManyTill_build (B C : Build) (r) (c : Collect U T) (p : Parser σ I U E)
    (end_ : Parser σ I V N) :
    @Bounded.manyTill B U T σ I E V N r c p end_ = @Bounded.manyTill C U T σ I E V N r c p end_ :=
  Bounded.manyTillWith_build B C r c.driver p end_

end Comb

theorem usub_wrap (B : Build) (hB : B.checked = false) {a b : Nat} (h : a < b) (hb : b ≤ usizeMax) :
    ∃ d, @usub B a b = .ok d ∧ d + b = a + 2 ^ 64 := by
  have e : usizeMax < 2 ^ 64 := by decide
  unfold usub
  rw [if_neg (by omega), if_neg (by rw [hB]; decide)]
  refine ⟨_, rfl, ?_⟩
  rw [Nat.mod_eq_of_lt (by omega)]
  omega

namespace Spec.Built

open Spec Comb

theorem shrinks {a : Allow} {p : Parser σ I T E} (h : Built a p) : Shrinks p := by
  intro i w i' t w' e
  have := Built.good h i w
  rw [e] at this
  exact this.2.length_le

theorem build (B C : Build) {a : Allow}
    (hs : (∀ {σ I T E : Type} {p : Parser σ I T E}, @Built B a σ I T E p → Shrinks p) ∨
      ∀ {σ I T E : Type} {p : Parser σ I T E}, @Built C a σ I T E p → Shrinks p)
    {σ I T E : Type} {p : Parser σ I T E} (h : @Built B a σ I T E p) : @Built C a σ I T E p := by
  induction h with
  | ret t => exact .ret t
  | err e => exact .err e
  | fromResult r => exact .fromResult r
  | incomplete n h hk => exact .incomplete n h hk
  | bind h1 h2 ih1 ih2 => exact .bind ih1 ih2
  | andThen h1 h2 ih1 ih2 => exact .andThen ih1 ih2
  | map f h1 ih1 => exact .map f ih1
  | mapErr f h1 ih1 => exact .mapErr f ih1
  | inspect f h1 h2 ih2 => exact .inspect f h1 ih2
  | effect h1 h2 ih2 => exact .effect h1 ih2
  | any => exact .any
  | satisfy v f => exact .satisfy v f
  | satisfyWith v f p => exact .satisfyWith v f p
  | token v t => exact .token v t
  | notToken v t => exact .notToken v t
  | peek h1 => exact .peek h1
  | peekNext => exact .peekNext
  | take n hk => rw [Parsers.take_build B C]; exact .take n hk
  | takeWhile f => exact .takeWhile f
  | takeWhile1 v f => exact .takeWhile1 v f
  | takeTill f => exact .takeTill f
  | scan s f => exact .scan s f
  | runScanner s f => exact .runScanner s f
  | takeRemainder h1 => exact .takeRemainder h1
  | string v s hk => rw [Parsers.string_build B C]; exact .string v s hk
  | eof v h1 => exact .eof v h1
  | mapM f h1 h2 ih2 => exact .mapM f h1 ih2
  | mapErrM f h1 h2 ih2 => exact .mapErrM f h1 ih2
  | satisfyM v f h1 => exact .satisfyM v f h1
  | satisfyWithM v f p h1 => exact .satisfyWithM v f p h1
  | tokenM eq v t h1 => exact .tokenM eq v t h1
  | notTokenM ne v t h1 => exact .notTokenM ne v t h1
  | takeWhileM f h1 => exact .takeWhileM f h1
  | takeWhile1M v f h1 => exact .takeWhile1M v f h1
  | takeTillM f h1 => exact .takeTillM f h1
  | scanM s f h1 => exact .scanM s f h1
  | runScannerM s f h1 => exact .runScannerM s f h1
  | stringM ne v s hk h1 => rw [Closures.string_build B C]; exact .stringM ne v s hk h1
  | count n c h1 ih1 => rw [Comb.count_build B C]; exact .count n c ih1
  | option t h1 ih1 => exact .option t ih1
  | or h1 h2 ih1 ih2 => exact .or ih1 ih2
  | many c h1 ih1 => rw [Comb.many_build B C]; exact .many c ih1
  | many1 c h1 ih1 => rw [Comb.many1_build B C]; exact .many1 c ih1
  | sepBy conv c h1 h2 ih1 ih2 => rw [Comb.sepBy_build B C]; exact .sepBy conv c ih1 ih2
  | sepBy1 conv c h1 h2 ih1 ih2 => rw [Comb.sepBy1_build B C]; exact .sepBy1 conv c ih1 ih2
  | manyTill c h1 h2 h3 ih2 ih3 => rw [Comb.manyTill_build B C]; exact .manyTill c h1 ih2 ih3
  | skipMany h1 ih1 => rw [Comb.skipMany_build B C]; exact .skipMany ih1
  | skipMany1 h1 ih1 => rw [Comb.skipMany1_build B C]; exact .skipMany1 ih1
  | matchedBy h1 ih1 =>
    rw [Comb.matchedBy_build B C (hs.elim (fun h => h h1) fun h => h ih1)]
    exact .matchedBy ih1
  | lookAhead h1 ih1 => exact .lookAhead ih1
  | boundedMany r c h1 h2 ih2 => rw [Comb.boundedMany_build B C]; exact .boundedMany r c h1 ih2
  | boundedSkipMany r h1 h2 ih2 => rw [Bounded.skipMany_build B C]; exact .boundedSkipMany r h1 ih2
  | boundedManyTill r c h1 h2 h3 h4 ih3 ih4 => rw [Comb.boundedManyTill_build B C]; exact .boundedManyTill r c h1 h2 ih3 ih4
  | skipWhitespace => exact .skipWhitespace
  | digit v => exact .digit v
  | decimal v N h1 => exact .decimal v N h1
  | signed v N h1 h2 ih2 => exact .signed v N h1 ih2
  | endless => exact .endless
  | unfolds q hq _ ih => exact .unfolds q hq ih

end Spec.Built

end Chomp
