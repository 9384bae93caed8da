import Verif.Lemmas.Convert
import Verif.Props.SepBy
import Verif.Props.Built
import Verif.Props.RustText

/-
C115: when errors are converted by `From`, for implementations of it which may have effects, panic or not return.
`conv` is the implementation; the functions are those of Verif/Model/Convert.lean.
-/

namespace Chomp.Props

open Spec

variable {σ I T U V W E N : Type}

/-! ### bind and then -/

/-- `bind` runs the conversion once on an error, and not at all otherwise. -/
theorem C115_bind (conv : E → M σ V) (f : Input I → T → M σ (ParseResult I U V)) :
    (∀ i t, Converted.bind conv (.data i t) f = f i t) ∧
    (∀ b e w, Converted.bind conv (.error b e) f w = conv e w >>= fun x => .ok (.error b x.1, x.2)) ∧
    ∀ n w, Converted.bind conv (.incomplete n) f w = .ok (.incomplete n, w) := by
  refine ⟨fun i t => Converted.bind_data conv i t f, fun b e w => ?_, fun _ _ => rfl⟩
  show Res.bind (conv e w) _ = Res.bind (conv e w) _
  cases conv e w <;> rfl

/-- So does `then`. -/
theorem C115_then (conv : E → M σ V) (f : Parser σ I U V) :
    (∀ i (t : T), Converted.andThen conv (.data i t) f = f i) ∧
    (∀ b e w, Converted.andThen (T := T) conv (.error b e) f w = conv e w >>= fun x => .ok (.error b x.1, x.2)) ∧
    ∀ n w, Converted.andThen (T := T) conv (.incomplete n) f w = .ok (.incomplete n, w) :=
  C115_bind conv fun i _ => f i

/-- It is the `bind` which does not convert, after `map_err` with the conversion. -/
theorem C115_map_err (conv : E → M σ V) (p : Parser σ I T E) (f : T → Parser σ I U V) :
    (fun i => do let r ← p i; Converted.bind conv r (fun i t => f t i)) =
      Parser.bind id (Closures.mapErr p conv) f := by
  funext i w
  unfold Parser.bind Closures.mapErr
  simp only [M.bind_apply]
  cases p i w with
  | ok x =>
    obtain ⟨x, w'⟩ := x
    cases x with
    | data i' t => rfl
    | error b e =>
      simp only [Res.bind_ok, ParseResult.mapErr, Converted.bind, M.bind_apply]
      cases conv e w' <;> rfl
    | incomplete n => rfl
  | _ => rfl

/-- A conversion without effects gives the functions of the other properties. -/
theorem C115_function (conv : E → V) (r : ParseResult I T E) (f : Input I → T → M σ (ParseResult I U V)) :
    Converted.bind (fun e => pure (conv e)) r f = r.bind conv f := by cases r <;> rfl

/-! ### The laws of monads -/

theorem C115_left_identity (conv : E → M σ V) (i : Input I) (t : T) (f : Input I → T → M σ (ParseResult I U V)) :
    Converted.bind conv (i.ret t) f = f i t := Converted.bind_data conv i t f

/-- `bind` with `ret` is the conversion. -/
theorem C115_right_identity (conv : E → M σ V) (r : ParseResult I T E) :
    Converted.bind conv r (fun i t => pure (i.ret t)) = r.mapErr conv := by
  cases r with
  | data i t => rw [Converted.bind_data]; rfl
  | error b e => rfl
  | incomplete n => rfl

/-- Associativity holds if and only if converting twice does what converting at once does, effects included. -/
theorem C115_associativity (c12 : E → M σ V) (c23 : V → M σ N) (c13 : E → M σ N) :
    (∀ e, c13 e = c12 e >>= c23) ↔
    ∀ (m : ParseResult I T E) (f : Input I → T → M σ (ParseResult I U V)) (g : Input I → U → M σ (ParseResult I W N)),
      (Converted.bind c12 m f >>= fun r => Converted.bind c23 r g) =
        Converted.bind c13 m (fun i x => f i x >>= fun r => Converted.bind c23 r g) := by
  constructor
  · intro coh m f g
    cases m with
    | data i t => rw [Converted.bind_data, Converted.bind_data]
    | error b e =>
      simp only [Converted.bind, coh]
      funext w
      simp only [M.bind_apply]
      cases c12 e w <;> rfl
    | incomplete n => rfl
  · intro h e
    funext w
    have h := congrFun (h (.error [] e) (fun _ _ => M.panic) (fun _ _ => M.panic)) w
    simp only [Converted.bind, M.bind_apply] at h
    rw [M.bind_apply]
    generalize c12 e w = a at h ⊢
    cases a with
    | ok x =>
      obtain ⟨x, w'⟩ := x
      simp only [Res.bind_ok, M.pure_apply, M.bind_apply] at h ⊢
      generalize c23 x w' = b at h ⊢
      generalize c13 e w = c at h ⊢
      match b, c, h with
      | .ok (x, w), .ok (y, w'), h => cases h; rfl
      | .panic, .panic, _ => rfl
      | .ub, .ub, _ => rfl
      | .div, .div, _ => rfl
      | .ok _, .panic, h | .ok _, .ub, h | .ok _, .div, h | .panic, .ok _, h | .panic, .ub, h | .panic, .div, h
      | .ub, .ok _, h | .ub, .panic, h | .ub, .div, h | .div, .ok _, h | .div, .panic, h | .div, .ub, h => cases h
    | panic | ub | div =>
      generalize c13 e w = c at h ⊢
      cases c <;> first | rfl | cases h

/-! ### sep_by -/

/-- `sep_by` and `sep_by1` convert the errors of separators, and so are those which do not convert, for the separator
after `map_err` with the conversion; for every collection. -/
theorem C115_sep_map_err (conv : N → M σ E) (c : Collect U T) (p : Parser σ I U E) (sep : Parser σ I V N) :
    Converted.sepBy conv c p sep = Comb.sepBy id c p (Closures.mapErr sep conv) ∧
    Converted.sepBy1 conv c p sep = Comb.sepBy1 id c p (Closures.mapErr sep conv) := by
  constructor
  · funext i; unfold Converted.sepBy Comb.sepBy; rw [Converted.sepParser_eq]
  · funext i; unfold Converted.sepBy1 Comb.sepBy1; rw [Converted.sepParser_eq]

/-- A conversion without effects gives the functions of the other properties. -/
theorem C115_sep_function (conv : N → E) (c : Collect U T) (p : Parser σ I U E) (sep : Parser σ I V N) :
    Converted.sepBy (fun e => pure (conv e)) c p sep = Comb.sepBy conv c p sep ∧
    Converted.sepBy1 (fun e => pure (conv e)) c p sep = Comb.sepBy1 conv c p sep := by
  constructor
  · funext i; unfold Converted.sepBy Comb.sepBy; rw [Rust.converted_sep]
  · funext i; unfold Converted.sepBy1 Comb.sepBy1; rw [Rust.converted_sep]

/-- What they do, exactly: the grammar of C31 and C32 where a failing separator runs the conversion. -/
theorem C115_sep_by (conv : N → M σ E) (p : Parser σ I U E) (sep : Parser σ I V N) (i : Input I) (w : σ)
    (o : Res (ParseResult I (List U) E × σ)) (ho : o ≠ .div) :
    (Converted.sepBy conv (Collect.vec U) p sep i w = o ↔ SepOutcome p (sepThenFrom conv p sep) 0 i w o) ∧
    (Converted.sepBy1 conv (Collect.vec U) p sep i w = o ↔ SepOutcome p (sepThenFrom conv p sep) 1 i w o) := by
  rw [(C115_sep_map_err conv _ p sep).1, (C115_sep_map_err conv _ p sep).2, Converted.sepThenFrom_eq]
  exact ⟨C31_sep_by id p _ i w o ho, C32_sep_by1 id p _ i w o ho⟩

/-- After an item, a separator which fails ends the list. Its error is converted nevertheless, and what it was converted
to is dropped: only the effects remain, or the panic. -/
theorem C115_discarded (conv : N → M σ E) (p : Parser σ I U E) (sep : Parser σ I V N) (i i' : Input I) (w w' w1 : σ)
    (u : U) (us : List U) (b : List I) (e : N) (h : SepReps p (sepThenFrom conv p sep) i w (u :: us) i' w')
    (hs : sep i' w' = .ok (.error b e, w1)) (hd : conv e w1 ≠ .div) :
    Converted.sepBy conv (Collect.vec U) p sep i w = (conv e w1 >>= fun x => .ok (.data i' (u :: us), x.2)) ∧
    Converted.sepBy1 conv (Collect.vec U) p sep i w = (conv e w1 >>= fun x => .ok (.data i' (u :: us), x.2)) := by
  have ha : attempt p (sepThenFrom conv p sep) (u :: us) i' w' = conv e w1 >>= fun x => .ok (.error b x.1, x.2) := by
    show sepThenFrom conv p sep i' w' = _
    unfold sepThenFrom
    rw [hs]
  have key : ∀ o, o ≠ .div → (∀ m, m ≤ 1 → SepOutcome p (sepThenFrom conv p sep) m i w o) →
      Converted.sepBy conv (Collect.vec U) p sep i w = o ∧ Converted.sepBy1 conv (Collect.vec U) p sep i w = o :=
    fun o ho h => ⟨(C115_sep_by conv p sep i w o ho).1.mpr (h 0 (by decide)),
      (C115_sep_by conv p sep i w o ho).2.mpr (h 1 (by decide))⟩
  cases hc : conv e w1 with
  | ok x =>
    rw [hc] at ha
    exact key (.ok (.data i' (u :: us), x.2)) nofun fun m hm => .stop_error h ha (by simp only [List.length_cons]; omega)
  | panic => rw [hc] at ha; exact key .panic nofun fun m _ => .panic h ha
  | ub => rw [hc] at ha; exact key .ub nofun fun m _ => .ub h ha
  | div => exact absurd hc hd

/-- At most one error is converted by a `sep_by` or `sep_by1`, however many items and separators there are, and only
that of a separator after the last item, which is then not part of the result. -/
theorem C115_once (conv : N → M σ E) (p : Parser σ I U E) (sep : Parser σ I V N) (i : Input I) (w w' : σ) (n n' : Nat)
    (r : ParseResult I (List U) E)
    (h : Converted.sepBy (counted conv) (Collect.vec U) (apart p) (apart sep) i (w, n) = .ok (r, (w', n')) ∨
      Converted.sepBy1 (counted conv) (Collect.vec U) (apart p) (apart sep) i (w, n) = .ok (r, (w', n'))) :
    n' = n ∨ n' = n + 1 ∧ ∃ i' us w1 w2 b e, r = .data i' us ∧ us ≠ [] ∧ sep i' w1 = .ok (.error b e, w2) := by
  have item : ∀ {i r} {w w' : σ × Nat}, apart p i w = .ok (r, w') → w'.2 = w.2 := by
    intro i r w w' h
    unfold apart at h
    cases hp : p i w.1 with
    | ok x => rw [hp] at h; cases h; rfl
    | panic | ub | div => rw [hp] at h; cases h
  have hq : ∀ {i i' u} {w w' : σ × Nat},
      sepThenFrom (counted conv) (apart p) (apart sep) i w = .ok (.data i' u, w') → w'.2 = w.2 := by
    intro i i' u w w' h
    unfold sepThenFrom at h
    cases hs : sep i w.1 with
    | ok x =>
      obtain ⟨x, w1⟩ := x
      have : apart sep i w = .ok (x, (w1, w.2)) := by unfold apart; rw [hs]
      rw [this] at h
      cases x with
      | data i1 _ => exact item (w := (w1, w.2)) h
      | error b e =>
        simp only at h
        cases hc : counted conv e (w1, w.2) <;> rw [hc] at h <;> cases h
      | incomplete n => cases h
    | panic | ub | div =>
      unfold apart at h
      rw [hs] at h; cases h
  have reps : ∀ {us i i'} {w w' : σ × Nat},
      Reps (sepThenFrom (counted conv) (apart p) (apart sep)) i w us i' w' → w'.2 = w.2 := by
    intro us i i' w w' h
    induction h with
    | nil => rfl
    | cons h1 _ ih => rw [ih, hq h1]
  have seps : ∀ {us i i'} {w w' : σ × Nat},
      SepReps (apart p) (sepThenFrom (counted conv) (apart p) (apart sep)) i w us i' w' → w'.2 = w.2 := by
    intro us i i' w w' h
    cases h with
    | nil => rfl
    | cons h1 h2 => rw [reps h2, item h1]
  have att : ∀ {us : List U} {i r} {w w' : σ × Nat},
      attempt (apart p) (sepThenFrom (counted conv) (apart p) (apart sep)) us i w = .ok (r, w') →
      w'.2 = w.2 ∨ w'.2 = w.2 + 1 ∧ us ≠ [] ∧ ∃ b e e' w2, r = .error b e' ∧ sep i w.1 = .ok (.error b e, w2) := by
    intro us i r w w' h
    cases us with
    | nil => exact .inl (item h)
    | cons u us =>
      change sepThenFrom _ _ _ i w = _ at h
      unfold sepThenFrom at h
      cases hs : sep i w.1 with
      | ok x =>
        obtain ⟨x, w1⟩ := x
        have : apart sep i w = .ok (x, (w1, w.2)) := by unfold apart; rw [hs]
        rw [this] at h
        cases x with
        | data i1 _ => exact .inl (item (w := (w1, w.2)) h)
        | error b e =>
          simp only at h
          unfold counted at h
          cases hc : conv e w1 with
          | ok y =>
            rw [hc] at h
            cases h
            exact .inr ⟨rfl, nofun, _, _, _, _, rfl, rfl⟩
          | panic | ub | div => rw [hc] at h; cases h
        | incomplete n => cases h; exact .inl rfl
      | panic | ub | div =>
        unfold apart at h
        rw [hs] at h; cases h
  have main : ∀ m, m ≤ 1 →
      SepOutcome (apart p) (sepThenFrom (counted conv) (apart p) (apart sep)) m i (w, n) (.ok (r, (w', n'))) →
      n' = n ∨ n' = n + 1 ∧ ∃ i' us w1 w2 b e, r = .data i' us ∧ us ≠ [] ∧ sep i' w1 = .ok (.error b e, w2) := by
    intro m hm h
    generalize ho : Res.ok (r, (w', n')) = o at h
    cases h with
    | stop_error h1 h2 h3 =>
      cases ho
      have e1 := seps h1
      rcases att h2 with e2 | ⟨e2, h5, b, e, e', w2, _, h6⟩
      · exact .inl (e2.trans e1)
      · exact .inr ⟨e2.trans (congrArg (· + 1) e1), _, _, _, _, _, _, rfl, h5, h6⟩
    | stop_last h1 h2 h3 h4 =>
      cases ho
      have e1 := seps h1
      rcases att h2 with e2 | ⟨_, _, b, e, e', w2, h6, _⟩
      · exact .inl (e2.trans e1)
      · cases h6
    | error h1 h2 h3 =>
      cases ho
      have e1 := seps h1
      rcases att h2 with e2 | ⟨_, h5, _⟩
      · exact .inl (e2.trans e1)
      · exact absurd (List.length_eq_zero_iff.mp (by omega)) h5
    | incomplete h1 h2 h3 =>
      cases ho
      have e1 := seps h1
      rcases att h2 with e2 | ⟨_, _, b, e, e', w2, h6, _⟩
      · exact .inl (e2.trans e1)
      · cases h6
    | panic => cases ho
    | ub => cases ho
  rcases h with h | h
  · exact main 0 (by decide) ((C115_sep_by _ _ _ i _ (.ok (r, (w', n'))) nofun).1.mp h)
  · exact main 1 (by decide) ((C115_sep_by _ _ _ i _ (.ok (r, (w', n'))) nofun).2.mp h)

/-! ### What holds of all parsers holds with such conversions -/

theorem C115_built {a : Allow} (conv : E → M σ V) (hc : a.mayPanic = false → ∀ e w, conv e w ≠ .panic)
    {p : Parser σ I T E} (hp : Built a p) {f : T → Parser σ I U V} (hf : ∀ t, Built a (f t)) :
    Built a (fun i => do let r ← p i; Converted.bind conv r (fun i t => f t i)) := by
  rw [C115_map_err]
  exact .bind (.mapErrM conv hc hp) hf

theorem C115_sep_built {a : Allow} (conv : N → M σ E) (hc : a.mayPanic = false → ∀ e w, conv e w ≠ .panic)
    (c : Collect U T) {p : Parser σ I U E} (hp : Built a p) {sep : Parser σ I V N} (hs : Built a sep) :
    Built a (Converted.sepBy conv c p sep) ∧ Built a (Converted.sepBy1 conv c p sep) := by
  rw [(C115_sep_map_err conv c p sep).1, (C115_sep_map_err conv c p sep).2]
  exact ⟨.sepBy id c hp (.mapErrM conv hc hs), .sepBy1 id c hp (.mapErrM conv hc hs)⟩

/-! ### The text -/

section
open Rust hiding bind map
variable {X Y : Type} [Build] (W : World σ X Y) (t : T → Val X Y) (e : E → Val X Y) (u : U → Val X Y) (v : V → Val X Y)

/-- `conv` is the implementation of `From`. -/
def ConvertsBy (e : E → Val X Y) (e' : N → Val X Y) (conv : E → M σ N) : Prop :=
  ∀ a, stdCall W "<V as From<E>>::from" [e a] = toR (do let b ← conv a; pure (e' b))

/-- `bind` and `then`, run as Rust. -/
theorem C115_text (e' : N → Val X Y) (r : ParseResult X T E) (conv : E → M σ N) (hc : ConvertsBy W e e' conv) :
    (∀ (f : Val X Y) (g : Input X → T → M σ (ParseResult X U N)),
      (∀ i a, apply W f [ofInput i, t a] = toR (do let r ← g i a; pure (ofResult u e' r))) →
      run W Text.ParseResult_bind [ofResult t e r, f] =
        (do let q ← Converted.bind conv r g; pure (ofResult u e' q))) ∧
    ∀ (f : Val X Y) (g : Parser σ X U N), IsParser W f u e' g →
      run W Text.ParseResult_then [ofResult t e r, f] =
        (do let q ← Converted.andThen conv r g; pure (ofResult u e' q)) :=
  ⟨fun f g h => run_eq W (bind_from W t e u e' r f g conv h hc),
    fun f g h => run_eq W (then_from W t e u e' r f g conv h hc)⟩

/-- `sep_by` and `sep_by1`, run as Rust. -/
theorem C115_sep_text (e' : N → Val X Y) (c : Collect U T) (hc : Collects W.collect c.consumer.machine u t) (f g : Val X Y)
    (p : Parser σ X U E) (hp : IsParser W f u e p) (q : Parser σ X V N) (hq : IsParser W g v e' q) (conv : N → M σ E)
    (hconv : ConvertsBy W e' e conv) (i : Input X) :
    run W Text.sep_by [ofInput i, f, g] = (do let r ← Converted.sepBy conv c p q i; pure (ofResult t e r)) ∧
    run W Text.sep_by1 [ofInput i, f, g] = (do let r ← Converted.sepBy1 conv c p q i; pure (ofResult t e r)) := by
  have h1 := run_eq W (sep_by_from W u e v e' f g p q conv hc hp hq hconv i)
  have h2 := run_eq W (sep_by1_from W u e v e' f g p q conv hc hp hq hconv i)
  rw [Consumer.machine_inner, Consumer.machine_driver, Collect.consumer_driver] at h1 h2
  exact ⟨h1, h2⟩

end

/-! ### Examples -/

namespace ConvertEx

/-- A `From` which counts its calls. -/
def counting : Error Char → M Nat (Error Char) := fun e n => .ok (e, n + 1)

/-- A `From` which panics. -/
def panicking : Error Char → M Nat (Error Char) := fun _ _ => .panic

/-- Digits with commas between them. -/
abbrev digit : Parser Nat Char Char (Error Char) := Parsers.satisfy true Char.isDigit
abbrev comma : Parser Nat Char Char (Error Char) := Parsers.token true ','

theorem reps (conv : Error Char → M Nat (Error Char)) :
    SepReps digit (sepThenFrom conv digit comma) ⟨.default, ['1', ',', '2', ';']⟩ 0 ['1', '2'] ⟨.default, [';']⟩ 0 :=
  .cons rfl (.cons rfl .nil)

-- The list is read, and the conversion of the error of the last separator is run once, for nothing.
example : Converted.sepBy counting (Collect.vec Char) digit comma ⟨.default, ['1', ',', '2', ';']⟩ 0 =
    .ok (.data ⟨.default, [';']⟩ ['1', '2'], 1) :=
  (C115_discarded counting digit comma _ _ 0 0 0 '1' ['2'] [';'] (.expected ',') (reps _) rfl nofun).1

-- If it panics, so does sep_by.
example : Converted.sepBy panicking (Collect.vec Char) digit comma ⟨.default, ['1', ',', '2', ';']⟩ 0 = .panic :=
  (C115_discarded panicking digit comma _ _ 0 0 0 '1' ['2'] [';'] (.expected ',') (reps _) rfl nofun).1

-- No error of a separator, no conversion: the input ends after an item.
example : Converted.sepBy panicking (Collect.vec Char) digit comma ⟨.endOfInput, ['1', ',', '2']⟩ 0 =
    .ok (.data ⟨.endOfInput, []⟩ ['1', '2'], 0) :=
  (C115_sep_by _ _ _ _ _ (.ok _) nofun).1.mpr (.stop_last (n := 1) (.cons rfl (.cons rfl .nil)) rfl (Nat.zero_le _) rfl)

-- Conversions which are coherent with their effects, and such which are not.
example : ∀ e, (fun e n => .ok (e, n + 2) : Error Char → M Nat (Error Char)) e = counting e >>= counting :=
  fun _ => rfl
example : ¬ ∀ e, counting e = counting e >>= counting := fun h => by
  have := congrFun (h .unexpected) 0
  cases this

open Rust in
example : ConvertsBy (N := Int) (E := Int) { TextEx.world with from_ := fun y n => .ok (y, n + 1) }
    (.other ·) (.other ·) (fun y n => .ok (y, n + 1)) := fun _ => rfl

end ConvertEx

end Chomp.Props
