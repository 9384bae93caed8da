import Verif.Lemmas.Machine
import Verif.Props.Convert
import Verif.Props.Release

/-
C116: collections with effects.
-/

namespace Chomp.Props

open Spec Bounded Rust

/-- `bounded::many` (and so `count`, `many` and `many1`) into any collection, whatever it does and asks for: the result,
the captured state, panics and undefined behaviour are those of the sessions. -/
theorem C116_many (r : Range) (hr : Fine r) (c : Machine σ U T) (p : Parser σ I U E) (i : Input I) (w : σ)
    (o : Res (ParseResult I T E × σ)) (ho : o ≠ .div) :
    manyWith r c.driver p i w = o ↔ CollectOutcome (fun _ => p) r c i w o :=
  Machine.many_outcome hr i w ho

/-- Likewise `bounded::many_till`. -/
theorem C116_many_till (r : Range) (hr : Fine r) (c : Machine σ U T) (p : Parser σ I U E) (end_ : Parser σ I V N)
    (i : Input I) (w : σ) (o : Res (ParseResult I T E × σ)) (ho : o ≠ .div) :
    manyTillWith r c.driver p end_ i w = o ↔ CollectTill p end_ r c i w o :=
  Machine.till_outcome hr i w ho

/-- Likewise `sep_by` and `sep_by1`: the first item alone, every other one after a separator. -/
theorem C116_sep_by (conv : N → M σ E) (c : Machine σ U T) (p : Parser σ I U E) (sep : Parser σ I V N) (i : Input I)
    (w : σ) (o : Res (ParseResult I T E × σ)) (ho : o ≠ .div) :
    (Machine.sepBy conv c p sep i w = o ↔ CollectOutcome (attempt p (sepThenFrom conv p sep)) .full c i w o) ∧
    (Machine.sepBy1 conv c p sep i w = o ↔ CollectOutcome (attempt p (sepThenFrom conv p sep)) (.from_ 1) c i w o) :=
  ⟨Machine.sep_outcome (r := .full) trivial i w ho, Machine.sep_outcome (r := .from_ 1) trivial i w ho⟩

/-- The collections of the other properties are among them. -/
theorem C116_collect (c : Collect U T) (r : Range) (p : Parser σ I U E) (end_ : Parser σ I V N) (conv : N → M σ E) :
    manyWith r c.consumer.machine.driver p = many r c p ∧
    manyTillWith r c.consumer.machine.driver p end_ = manyTill r c p end_ ∧
    Machine.sepBy conv c.consumer.machine p end_ = Converted.sepBy conv c p end_ ∧
    Machine.sepBy1 conv c.consumer.machine p end_ = Converted.sepBy1 conv c p end_ := by
  refine ⟨?_, ?_, ?_, ?_⟩
  · rw [Consumer.machine_driver, Collect.consumer_driver]; rfl
  · rw [Consumer.machine_driver, Collect.consumer_driver]; rfl
  · funext i
    rw [Machine.sepBy, Consumer.machine_inner, Consumer.machine_driver, Collect.consumer_driver]
    rfl
  · funext i
    rw [Machine.sepBy1, Consumer.machine_inner, Consumer.machine_driver, Collect.consumer_driver]
    rfl

/-- The same in a release build. -/
theorem C116_release (r : Range) (c : Machine σ U T) (p : Parser σ I U E) (end_ : Parser σ I V N) (conv : N → M σ E) :
    @manyWith .release σ U T I E r c.driver p = manyWith r c.driver p ∧
    @manyTillWith .release σ U T I E V N r c.driver p end_ = manyTillWith r c.driver p end_ ∧
    @Machine.sepBy .release N σ E U T I V conv c p end_ = Machine.sepBy conv c p end_ ∧
    @Machine.sepBy1 .release N σ E U T I V conv c p end_ = Machine.sepBy1 conv c p end_ := by
  refine ⟨C81_many r c.driver p, C81_many_till r c.driver p end_, ?_, ?_⟩
  · funext i
    exact congrArg (fun f => Comb.newLocal false (f i)) (C81_many .full c.inner.driver (Converted.sepParser conv p end_))
  · funext i
    exact congrArg (fun f => Comb.newLocal false (f i))
      (C81_many (.from_ 1) c.inner.driver (Converted.sepParser conv p end_))

/-- A result with data has at least the least and at most the largest number of items, and the rest of the input is where
the last success ended. -/
theorem C116_items (r : Range) (hr : Fine r) (c : Machine σ U T) (p : Parser σ I U E) (i i' : Input I) (w w' : σ) (t : T)
    (h : manyWith r c.driver p i w = .ok (.data i' t, w')) :
    ∃ us last s, Filling (fun _ => p) r c i w us last s i' w' ∧ c.ask s = .done t ∧ least r ≤ us.length ∧
      ∀ m, most r = some m → us.length ≤ m := by
  have key : ∀ {us last s j w'}, Filling (fun _ => p) r c i w us last s j w' →
      ∀ m, most r = some m → us.length ≤ m := by
    intro us last s j w' hs
    induction hs with
    | start => exact fun _ _ => Nat.zero_le _
    | item _ _ hm _ ih =>
      intro m e
      have := ih m e
      rw [List.length_append, List.length_singleton]
      rw [e, Ne, Option.some.injEq] at hm
      omega
    | error _ _ _ _ ih => exact ih
    | incomplete _ _ _ _ ih => exact ih
    | limit _ _ _ ih => exact ih
    | hint _ _ ih => exact ih
    | act _ _ _ ih => exact ih
  have h := (C116_many r hr c p i w (.ok (.data i' t, w')) nofun).mp h
  generalize ho : Res.ok (ParseResult.data i' t, w') = o at h
  cases h with
  | @done us last s j w2 t' hs ha =>
    cases ho' : endMany r us.length t' j last with
    | data j' t2 =>
      rw [ho'] at ho
      cases ho
      have : least r ≤ us.length ∧ j = i' ∧ t' = t := by
        unfold endMany at ho'
        split at ho' <;> split at ho' <;> cases ho'
        · rename_i h; exact ⟨h, rfl, rfl⟩
        · rename_i h; exact ⟨h.1, rfl, rfl⟩
      obtain ⟨h1, rfl, rfl⟩ := this
      exact ⟨us, last, s, hs, ha, h1, key hs⟩
    | _ => rw [ho'] at ho; cases ho
  | _ => cases ho

/-- Nothing is lost of what the user's code did, and in no other order: the captured state goes from each effect of the
collection or of a parser to the next one. Here for effects which are logged: the log is what it was before, with the
entries of the session after it. -/
theorem C116_log {L : Type} (r : Range) (hr : Fine r) (c : Machine (List L) U T) (p : Parser (List L) I U E)
    (hp : ∀ j l x l', p j l = .ok (x, l') → ∃ d, l' = l ++ d)
    (hc : ∀ s g, c.ask s = .act g → ∀ l x l', g l = .ok (x, l') → ∃ d, l' = l ++ d)
    (i : Input I) (l l' : List L) (res : ParseResult I T E)
    (h : manyWith r c.driver p i l = .ok (res, l')) : ∃ d, l' = l ++ d := by
  have key : ∀ {us last s j l'}, Filling (fun _ => p) r c i l us last s j l' → ∃ d, l' = l ++ d := by
    intro us last s j l' hs
    induction hs with
    | start => exact ⟨[], (List.append_nil _).symm⟩
    | item _ _ _ h ih | error _ _ _ h ih | incomplete _ _ _ h ih =>
      obtain ⟨d, rfl⟩ := ih
      obtain ⟨d', rfl⟩ := hp _ _ _ _ h
      exact ⟨d ++ d', List.append_assoc ..⟩
    | limit _ _ _ ih => exact ih
    | hint _ _ ih => exact ih
    | act _ ha h ih =>
      obtain ⟨d, rfl⟩ := ih
      obtain ⟨d', rfl⟩ := hc _ _ ha _ _ _ h
      exact ⟨d ++ d', List.append_assoc ..⟩
  have h := (C116_many r hr c p i l (.ok (res, l')) nofun).mp h
  generalize ho : Res.ok (res, l') = o at h
  cases h with
  | done hs ha => cases ho; exact key hs
  | _ => cases ho

/-- The texts of the functions, run as Rust, with such a collection. -/
theorem C116_text [Build] (W : World σ X Y) (u : U → Val X Y) (t : T → Val X Y) (e : E → Val X Y) (v : V → Val X Y)
    (e' : N → Val X Y) (c : Machine σ U T) (hc : Collects W.collect c u t) (f g : Val X Y) (p : Parser σ X U E)
    (hp : IsParser W f u e p) (q : Parser σ X V N) (hq : IsParser W g v e' q) (conv : N → M σ E)
    (hconv : ConvertsBy W e' e conv) (i : Input X) (r : Range) (n : Nat) :
    run W Text.bounded_many [ofInput i, ofRange r, f]
      = (do let r ← manyWith r c.driver p i; pure (ofResult t e r)) ∧
    run W Text.count [ofInput i, .nat n, f] = (do let r ← manyWith (.exactly n) c.driver p i; pure (ofResult t e r)) ∧
    run W Text.many [ofInput i, f] = (do let r ← manyWith .full c.driver p i; pure (ofResult t e r)) ∧
    run W Text.many1 [ofInput i, f] = (do let r ← manyWith (.from_ 1) c.driver p i; pure (ofResult t e r)) ∧
    run W Text.bounded_many_till [ofInput i, ofRange r, f, g]
      = (do let r ← manyTillWith r c.driver p q i; pure (ofResult t e r)) ∧
    run W Text.many_till [ofInput i, f, g]
      = (do let r ← manyTillWith .full c.driver p q i; pure (ofResult t e r)) ∧
    run W Text.sep_by [ofInput i, f, g] = (do let r ← Machine.sepBy conv c p q i; pure (ofResult t e r)) ∧
    run W Text.sep_by1 [ofInput i, f, g] = (do let r ← Machine.sepBy1 conv c p q i; pure (ofResult t e r)) := by
  have h1 := run_eq W (sep_by_from W u e v e' f g p q conv hc hp hq hconv i)
  have h2 := run_eq W (sep_by1_from W u e v e' f g p q conv hc hp hq hconv i)
  exact ⟨C109_bounded_many W u t e c hc f p hp i r, C109_count W u t e c hc f p hp i n, C109_many W u t e c hc f p hp i,
    C109_many1 W u t e c hc f p hp i, C109_bounded_many_till W u t e v e' c hc f g p hp q hq i r,
    C109_many_till W u t e v e' c hc f g p hp q hq i, h1, h2⟩

/-! ### Examples -/

namespace SessionEx

/-- A collection which logs the size hint and every item it is given, and panics on 'x'. It stops at the first failure. -/
def logger : Machine (List String) Char Nat where
  State := Option (Option Char × Nat) ⊕ Nat
  start := .inl none
  ask
    | .inl none => .act fun l => .ok (.inl (some (none, 0)), l ++ ["start"])
    | .inl (some (none, n)) => .next fun o => match o with
      | some ch => .inl (some (some ch, n))
      | none => .inr n
    | .inl (some (some ch, n)) => .act fun l => if ch = 'x' then .panic else .ok (.inl (some (none, n + 1)), l ++ [toString ch])
    | .inr n => .done n

/-- Takes an item and logs it. -/
def noisy : Parser (List String) Char Char (Error Char) := fun i l =>
  match i.buf with
  | [] => .ok (.incomplete 1, l ++ ["end"])
  | ch :: b => .ok (.data ⟨i.mode, b⟩ ch, l ++ ["parse"])

theorem after_two : Filling (fun _ => noisy) .full logger ⟨.endOfInput, ['a', 'b']⟩ [] ['a', 'b'] (.incomplete 1)
    (.inr 2) ⟨.endOfInput, []⟩ ["start", "parse", "a", "parse", "b", "end"] := by
  have s0 := Filling.start (p := fun _ => noisy) (r := .full) (c := logger) (i := ⟨.endOfInput, ['a', 'b']⟩) (w := [])
  have s1 := s0.act rfl rfl
  have s2 := s1.item rfl nofun rfl
  have s3 := s2.act rfl rfl
  have s4 := s3.item rfl nofun rfl
  have s5 := s4.act rfl rfl
  exact s5.incomplete rfl nofun rfl

-- the parser and the collection take turns
example : manyWith .full logger.driver noisy ⟨.endOfInput, ['a', 'b']⟩ []
    = .ok (.data ⟨.endOfInput, []⟩ 2, ["start", "parse", "a", "parse", "b", "end"]) :=
  (C116_many .full trivial logger noisy _ _ (.ok _) nofun).mpr (.done after_two rfl)

-- the panic of the collection
example : manyWith .full logger.driver noisy ⟨.default, ['a', 'x']⟩ [] = .panic := by
  have s0 := Filling.start (p := fun _ => noisy) (r := .full) (c := logger) (i := ⟨.default, ['a', 'x']⟩) (w := [])
  have s1 := s0.act rfl rfl
  have s2 := s1.item rfl nofun rfl
  have s3 := s2.act rfl rfl
  have s4 := s3.item rfl nofun rfl
  exact (C116_many .full trivial logger noisy _ _ .panic nofun).mpr (.act_panic s4 rfl rfl)

example : ∃ d, ["start", "parse", "a", "parse", "b", "end"] = [] ++ d :=
  C116_log .full trivial logger noisy
    (by
      intro j l x l' h
      unfold noisy at h
      split at h <;> cases h <;> exact ⟨_, rfl⟩)
    (by
      intro s g h l x l' hg
      match s, h with
      | .inl none, h => cases h; cases hg; exact ⟨_, rfl⟩
      | .inl (some (some ch, n)), h =>
        cases h
        dsimp only at hg
        split at hg <;> cases hg
        exact ⟨_, rfl⟩)
    ⟨.endOfInput, ['a', 'b']⟩ [] _ _ ((C116_many .full trivial logger noisy _ _ (.ok _) nofun).mpr (.done after_two rfl))

/-- A comma. -/
abbrev comma : Parser (List String) Char Char (Error Char) := Parsers.token true ','

-- until a comma, which is then consumed
example : manyTillWith .full logger.driver noisy comma ⟨.default, ['a', ',', 'b']⟩ []
    = .ok (.data ⟨.default, ['b']⟩ 1, ["start", "parse", "a"]) := by
  have s0 := FillingTill.start (p := noisy) (end_ := comma) (r := .full) (c := logger) (i := ⟨.default, ['a', ',', 'b']⟩) (w := [])
  have s1 := s0.act rfl rfl
  have s2 := s1.item rfl (.miss_error rfl .none) nofun rfl
  have s3 := s2.act rfl rfl
  have s4 := s3.ended rfl (.hit rfl)
  exact (C116_many_till .full trivial logger noisy _ _ _ (.ok _) nofun).mpr (.done s4 rfl (fun _ => Nat.zero_le _))

-- separators; the error of the last one is converted
example : Machine.sepBy (fun e l => .ok (e, l ++ ["from"])) logger noisy comma ⟨.default, ['a', ',', 'b', ';']⟩ []
    = .ok (.data ⟨.default, [';']⟩ 2, ["start", "parse", "a", "parse", "b", "from"]) := by
  have s0 := Filling.start (p := attempt noisy (sepThenFrom (fun e l => .ok (e, l ++ ["from"])) noisy comma)) (r := .full)
    (c := logger) (i := ⟨.default, ['a', ',', 'b', ';']⟩) (w := [])
  have s1 := s0.act rfl rfl
  have s2 := s1.item rfl nofun rfl
  have s3 := s2.act rfl rfl
  have s4 := s3.item rfl nofun rfl
  have s5 := s4.act rfl rfl
  have s6 := s5.error rfl nofun rfl
  exact (C116_sep_by _ logger noisy _ _ _ (.ok _) nofun).1.mpr (.done s6 rfl)

example : ∃ us last s, Filling (fun _ => noisy) .full logger ⟨.endOfInput, ['a', 'b']⟩ [] us last s ⟨.endOfInput, []⟩
      ["start", "parse", "a", "parse", "b", "end"] ∧ logger.ask s = .done 2 ∧ 0 ≤ us.length ∧
      ∀ m, none = some m → us.length ≤ m :=
  C116_items .full trivial logger noisy _ _ _ _ _
    ((C116_many .full trivial logger noisy _ _ (.ok _) nofun).mpr (.done after_two rfl))

end SessionEx

end Chomp.Props
