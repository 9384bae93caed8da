import Verif.Lemmas.Work
import Verif.Props.Productive
import Verif.Props.Recursive
import Verif.Props.Runs
import Verif.Props.Unroll

/-
C104: how often closures are called. `m : σ → Nat` reads a counter, or the length of a list of calls, from
what the closures have captured; `Work m b p` (Verif/Spec/Work.lean) computes a bound from the text of `p`.
-/

namespace Chomp.Props

open Spec

variable {σ I : Type} {m : σ → Nat}

/-- A run on `n` items adds at most `b n` to the counter, however it ends. -/
theorem C104_bound {b : Nat → Nat} {p : Parser σ I T E} (h : Work m b p) (i : Input I) (w w' : σ)
    (r : ParseResult I T E) (e : p i w = .ok (r, w')) : m w' ≤ m w + b i.buf.length :=
  Work.adds h i w r w' e

/-- So does `parse_only`. -/
theorem C104_parse_only {b : Nat → Nat} {p : Parser σ I T E} (h : Work m b p) (x : List I) (w w' : σ)
    (r : Except (ParseError I E) T) (e : parseOnly p x w = .ok (r, w')) : m w' ≤ m w + b x.length := by
  unfold parseOnly at e
  rw [M.bind_apply] at e
  match hp : p ⟨.endOfInput, x⟩ w, e with
  | .ok (r1, w1), e =>
    have h1 := C104_bound h ⟨.endOfInput, x⟩ w w1 r1 hp
    have h2 : w' = w1 := by
      rw [Res.bind_ok] at e
      cases r1 with
      | _ => first | (cases e; rfl) | cases e
    rw [h2]
    exact h1

/-- The bounds are polynomials: constants have degree 0, sums and multiples keep the degree, and repetition
adds one to it. -/
theorem C104_degree : (∀ c, Degree 0 fun _ => c) ∧ (Degree 1 fun n => n) ∧
    (∀ d b b', Degree d b → Degree d b' → Degree d fun n => b n + b' n) ∧
    (∀ d b k, Degree d b → Degree d fun n => k * b n) ∧
    (∀ d b k, Degree d b → Degree (d + 1) fun n => (n + k) * b n) ∧
    ∀ d b, Degree d b → Degree (d + 1) b := by
  refine ⟨fun c => ⟨c, fun n => by simp⟩, ⟨1, fun n => by simp⟩, ?_, ?_, ?_, ?_⟩
  · rintro d b b' ⟨C, h⟩ ⟨C', h'⟩
    refine ⟨C + C', fun n => ?_⟩
    rw [Nat.add_mul]
    exact Nat.add_le_add (h n) (h' n)
  · rintro d b k ⟨C, h⟩
    refine ⟨k * C, fun n => ?_⟩
    rw [Nat.mul_assoc]
    exact Nat.mul_le_mul_left k (h n)
  · rintro d b k ⟨C, h⟩
    refine ⟨(k + 1) * C, fun n => ?_⟩
    have h1 : n + k ≤ (k + 1) * (n + 1) := by
      rw [Nat.add_mul, Nat.mul_add, Nat.mul_one, Nat.one_mul]
      have := Nat.zero_le (k * n)
      omega
    calc (n + k) * b n ≤ ((k + 1) * (n + 1)) * (C * (n + 1) ^ d) := Nat.mul_le_mul h1 (h n)
      _ = (k + 1) * C * (n + 1) ^ (d + 1) := by
        rw [Nat.pow_succ]; simp only [Nat.mul_assoc, Nat.mul_comm, Nat.mul_left_comm]
  · rintro d b ⟨C, h⟩
    refine ⟨C, fun n => Nat.le_trans (h n) (Nat.mul_le_mul_left _ ?_)⟩
    exact Nat.pow_le_pow_right (by omega) (by omega)

/-! ### The bounds are attained -/

theorem tick_counted : Counted (fun n => n) tick := by
  intro w x w' e; cases e; exact Nat.le_refl _

theorem nest_productive (v : Bool) : ∀ d, Productive false (nest v d)
  | 0 => .effect (fun _ => ⟨nofun, nofun⟩) fun _ => .ret ()
  | d + 1 => .skipMany (.or (a := true) (b := true) (.andThen (b := true) (nest_productive v d) (.token v 'b')) .any)

theorem nest_built (v : Bool) : ∀ d, Built everything (nest v d)
  | 0 => .effect nofun fun _ => .ret ()
  | d + 1 => .skipMany (.or (.andThen (nest_built v d) (.token v 'b')) .any)

theorem any_silent : Silent m (Parsers.any : Parser σ I I (Error I)) := by
  intro i w r w' e
  rw [Parsers.any_eq] at e
  cases e
  exact Nat.le_refl _

theorem token_silent [DecidableEq I] (v : Bool) (t : I) : Silent m (Parsers.token v t : Parser σ I I (Error I)) := by
  intro i w r w' e
  rw [Parsers.token_eq] at e
  cases e
  exact Nat.le_refl _

theorem nest_item (v : Bool) (d : Nat) :
    Productive true (Comb.or (Parser.andThen id (nest v d) (Parsers.token v 'b')) Parsers.any) :=
  .or (a := true) (b := true) (.andThen (b := true) (nest_productive v d) (.token v 'b')) .any

/-- `d` nested repetitions: the bound is `(n + 1) ^ d`. -/
theorem C104_nested (v : Bool) : ∀ d, Work (fun n => n) (fun n => (n + 1) ^ d) (nest v d)
  | 0 => .effect (b := fun _ => 0) (fun _ _ _ => Nat.le_refl _) tick_counted fun _ =>
      .silent (.ret ()) fun i w r w' e => by cases e; exact Nat.le_refl _
  | d + 1 => by
    refine .weaken (.skipMany (fun i w i' t w' => C69_consumes (nest_item v d) i i' t w w')
      (.or (.andThen (C104_nested v d) (.silent (.token v 'b') (token_silent v 'b')))
        (.silent .any any_silent))) (fun n => ?_) (fun k n h => Nat.pow_le_pow_left (by omega) _)
    rw [Nat.pow_succ, Nat.mul_comm]
    exact Nat.le_refl _

theorem nestCalls_zero (d : Nat) : nestCalls d 0 = 1 := by
  induction d with
  | zero => rfl
  | succ d ih => simp [nestCalls, ih]

theorem nestCalls_step (d n : Nat) : nestCalls (d + 1) (n + 1) = nestCalls (d + 1) n + nestCalls d (n + 1) := by
  simp [nestCalls, List.range_succ, Nat.add_assoc]

theorem nest_step (v : Bool) (d : Nat) (j : List Char) (c : Nat) (x : List Char)
    (h : ∀ w, nest v d ⟨.endOfInput, x⟩ w = .ok (.data ⟨.endOfInput, j⟩ (), w + c)) (hj : ∀ z, j ≠ 'b' :: z) (w : Nat) :
    Comb.or (Parser.andThen id (nest v d) (Parsers.token v 'b')) Parsers.any ⟨.endOfInput, x⟩ w =
      Parsers.any ⟨.endOfInput, x⟩ (w + c) := by
  rcases Work.token_cases (σ := Nat) v 'b' j with ⟨z, hz, _⟩ | ⟨_, r, h1, h2⟩
  · exact absurd hz (hj z)
  · exact Work.or_fails ((Work.then_data (h w) id _).trans (h1 _)) h2 _

/-- On `n` items other than `b` which are all there is, `nest d` calls the closure exactly `nestCalls d n`
times. -/
theorem C104_attained (v : Bool) (d n w : Nat) : ∃ i, nest v d ⟨.endOfInput, List.replicate n 'a'⟩ w =
    .ok (.data i (), w + nestCalls d n) := by
  have : ∃ j : List Char, (∀ z, j ≠ 'b' :: z) ∧
      ∀ w, nest v d ⟨.endOfInput, List.replicate n 'a'⟩ w = .ok (.data ⟨.endOfInput, j⟩ (), w + nestCalls d n) := by
    clear w
    induction d generalizing n with
    | zero =>
      refine ⟨List.replicate n 'a', fun z hz => ?_, fun w => rfl⟩
      cases n with
      | zero => cases hz
      | succ n => cases hz
    | succ d ih =>
      refine ⟨[], nofun, fun w => ?_⟩
      have hk : KeepsMode (Comb.or (Parser.andThen id (nest v d) (Parsers.token v 'b')) Parsers.any) :=
        C71_keeps_mode (.or (.andThen (nest_built v d) (.token v 'b')) .any)
      induction n generalizing w with
      | zero =>
        obtain ⟨j, h1, h2⟩ := ih 0
        have h3 := nest_step v d j _ _ h2 h1 w
        unfold nest
        rw [(C71_skip_many _ hk).1]
        obtain ⟨r, h4, h5⟩ := Work.then_fails (h3.trans (Parsers.any_eq _ _)) nofun id
          (Comb.skipMany (Comb.or (Parser.andThen id (nest v d) (Parsers.token v 'b')) Parsers.any))
        rw [show List.replicate 0 'a' = [] from rfl] at h4 ⊢
        rw [Work.or_fails h4 h5, nestCalls_zero, nestCalls_zero]
        rfl
      | succ n ihn =>
        obtain ⟨j, h1, h2⟩ := ih (n + 1)
        have h3 := nest_step v d j _ _ h2 h1 w
        have h4 := ihn (w + nestCalls d (n + 1))
        unfold nest at h4 ⊢
        rw [(C71_skip_many _ hk).1]
        rw [nestCalls_step, Nat.add_comm (nestCalls (d + 1) n), ← Nat.add_assoc]
        exact Work.or_data ((Work.then_data (h3.trans (Parsers.any_eq _ _)) id _).trans h4) _
  obtain ⟨j, _, h⟩ := this
  exact ⟨_, h w⟩

theorem nestCalls_succ (d n : Nat) : nestCalls d n ≤ nestCalls d (n + 1) := by
  induction d generalizing n with
  | zero => simp [nestCalls]
  | succ d ih => rw [nestCalls_step]; omega

theorem nestCalls_le (d n k : Nat) : nestCalls d n ≤ nestCalls d (n + k) := by
  induction k with
  | zero => exact Nat.le_refl _
  | succ k ih => exact Nat.le_trans ih (nestCalls_succ d (n + k))

/-- So the degree cannot be improved. -/
theorem C104_degree_exact (d n : Nat) : n ^ d ≤ nestCalls d (d * n) := by
  induction d with
  | zero => simp [nestCalls]
  | succ d ih =>
    have h : ∀ k, k * nestCalls d (d * n) ≤ nestCalls (d + 1) (d * n + k) := by
      intro k
      induction k with
      | zero => simp
      | succ k ihk =>
        rw [Nat.succ_mul, ← Nat.add_assoc, nestCalls_step]
        have := nestCalls_le d (d * n) (k + 1)
        rw [← Nat.add_assoc] at this
        omega
    rw [Nat.succ_mul, Nat.pow_succ, Nat.mul_comm]
    exact Nat.le_trans (Nat.mul_le_mul_left n ih) (h n)

/-! ### Functions which call themselves -/

theorem backtracking_body (v : Bool) (k : Unit) : Body everything (fun q => backtracking v q k) :=
  .effect nofun fun _ =>
    .or (.andThen (.const (.token v 'a')) (.andThen (.call ()) (.map _ (.const (.token v 'b')))))
      (.or (.andThen (.const (.token v 'a')) (.andThen (.call ()) (.map _ (.const (.token v 'c')))))
        (.const (.ret ())))

theorem factored_body (v : Bool) (k : Unit) : Body everything (fun q => factored v q k) :=
  .effect nofun fun _ =>
    .or (.andThen (.const (.token v 'a')) (.andThen (.call ())
      (.map _ (.or (.const (.token v 'b')) (.const (.token v 'c'))))))
        (.const (.ret ()))

/-- Functions which call themselves or each other: if bounds for the calls give the same bounds for the bodies,
they are bounds. It need not be known that the functions return. -/
theorem C104_recursive {K : Type} {T E : K → Type} (F : Fns σ I T E → Fns σ I T E)
    (hF : ∀ k, Body everything (fun q => F q k)) (b : K → Nat → Nat) (hb : ∀ k, Grows (b k))
    (h : ∀ q, (∀ k, Work m (b k) (q k)) → ∀ k, Work m (b k) (F q k)) (p : Fns σ I T E) (hp : Means F p) (k : K) :
    Work m (b k) (p k) := by
  have hn : ∀ j k, Work m (b k) (nested F j k) := by
    intro j
    induction j with
    | zero => exact fun k => .known (Recursive.nested_built hF 0 k) (hb k) nofun
    | succ j ih => exact h _ ih
  refine .known (C90_assembled F hF p hp k) (hb k) fun i w r w' e => ?_
  obtain ⟨j, hj⟩ := (hp k i w (.ok (r, w')) nofun).mp e
  exact C104_bound (hn j k) i w w' r hj

/-- So the bounds on the numbers of calls come from the texts: `T 0 = 1` and `T (n + 1) = 1 + T n + T n` for
`s = a s b or a s c or nothing`, which is the number of calls on `n` times `a`; `T 0 = 1` and
`T (n + 1) = 1 + T n` for `s = a s (b or c) or nothing`. -/
theorem C104_recurrences (v : Bool) {p q} (hp : Means (backtracking v) p) (hq : Means (factored v) q) :
    Work (fun n => n) (fun n => 2 ^ (n + 1) - 1) (p ()) ∧ Work (fun n => n) (fun n => n + 1) (q ()) := by
  have ha : Consumes (Parsers.token (σ := Nat) v 'a') := fun i w i' t w' => C69_consumes (.token v 'a') i i' t w w'
  have hs : ∀ c : Char, Work (fun n => n) (fun _ => 0) (Parsers.token (σ := Nat) v c) :=
    fun c => .silent (.token v c) (token_silent v c)
  have hr : Work (fun n => n) (fun _ => 0) (Parser.ret (σ := Nat) (I := Char) (E := Error Char) ()) :=
    .silent (.ret ()) fun i w r w' e => by cases e; exact Nat.le_refl _
  have hg : Grows fun n => 2 ^ (n + 1) - 1 :=
    fun k n h => Nat.sub_le_sub_right (Nat.pow_le_pow_right (by omega) (by omega)) 1
  have hg' : Grows fun n => n + 1 := fun k n h => Nat.succ_le_succ h
  constructor
  · refine C104_recursive (backtracking v) (backtracking_body v) (fun _ n => 2 ^ (n + 1) - 1) (fun _ => hg)
      (fun q hq _ => ?_) p hp ()
    have alt : ∀ c : Char, Work (fun n => n) (fun n => 0 + after (fun n => 2 ^ (n + 1) - 1 + 0) n)
        (Parser.andThen id (Parsers.token v 'a') (Parser.andThen id (q ()) (Parser.map (Parsers.token v c) fun _ => ()))) :=
      fun c => .thenAfter ha (hs _) (.andThen (hq ()) (.map _ (hs c)))
    refine .weaken (.effect ?_ tick_counted fun _ => .or (alt 'b') (.or (alt 'c') hr)) (fun n => ?_) hg
    · exact Work.grows (.or (alt 'b') (.or (alt 'c') hr))
    · cases n with
      | zero => exact Nat.le_refl _
      | succ n =>
        show 0 + (2 ^ (n + 1) - 1 + 0) + (0 + (2 ^ (n + 1) - 1 + 0) + 0) + 1 ≤ 2 ^ (n + 1 + 1) - 1
        have : 0 < 2 ^ (n + 1) := Nat.two_pow_pos _
        rw [Nat.pow_succ 2 (n + 1)]
        omega
  · refine C104_recursive (factored v) (factored_body v) (fun _ n => n + 1) (fun _ => hg') (fun q hq _ => ?_) q hq ()
    have alt : Work (fun n => n) (fun n => 0 + after (fun n => n + 1 + (0 + 0)) n)
        (Parser.andThen id (Parsers.token v 'a') (Parser.andThen id (q ())
          (Parser.map (Comb.or (Parsers.token v 'b') (Parsers.token v 'c')) fun _ => ()))) :=
      .thenAfter ha (hs _) (.andThen (hq ()) (.map _ (.or (hs _) (hs _))))
    refine .weaken (.effect ?_ tick_counted fun _ => .or alt hr) (fun n => ?_) hg'
    · exact Work.grows (.or alt hr)
    · cases n with
      | zero => exact Nat.le_refl _
      | succ n => show 0 + (n + 1 + (0 + 0)) + 0 + 1 ≤ n + 1 + 1; omega

/-- `x` does not begin with `a`. -/
theorem branch_none (v : Bool) {x : List Char} (hx : ∀ z, x ≠ 'a' :: z) {E : Type} (conv : Error Char → E)
    (s : Parser Nat Char Unit E) (w : Nat) :
    ∃ r, Parser.andThen conv (Parsers.token v 'a') s ⟨.endOfInput, x⟩ w = .ok (r, w) ∧ ∀ j u, r ≠ .data j u := by
  rcases Work.token_cases (σ := Nat) v 'a' x with ⟨z, hz, _⟩ | ⟨_, r, h1, h2⟩
  · exact absurd hz (hx z)
  · exact Work.then_fails (h1 w) h2 _ _

/-- `x` begins with `a`, and the call leaves `y`. -/
theorem branch_some (v : Bool) {z y : List Char} {k : Nat} {q r : Parser Nat Char Unit (Error Char)}
    (hq : ∀ w, q ⟨.endOfInput, z⟩ w = .ok (.data ⟨.endOfInput, y⟩ (), w + k)) (w : Nat) :
    Parser.andThen id (Parsers.token v 'a') (Parser.andThen id q r) ⟨.endOfInput, 'a' :: z⟩ w =
      r ⟨.endOfInput, y⟩ (w + k) := by
  rcases Work.token_cases (σ := Nat) v 'a' ('a' :: z) with ⟨z', hz, h⟩ | ⟨h, _⟩
  · cases hz
    rw [Work.then_data (h w), Work.then_data (hq w)]
  · exact absurd rfl (h z)

theorem last_some (v : Bool) (c : Char) (u : List Char) (w : Nat) :
    Parser.map (Parsers.token v c) (fun _ => ()) ⟨.endOfInput, c :: u⟩ w =
      .ok (.data ⟨.endOfInput, u⟩ (), w) := by
  rcases Work.token_cases (σ := Nat) v c (c :: u) with ⟨z', hz, h⟩ | ⟨h, _⟩
  · cases hz
    exact Work.map_data (h w) _
  · exact absurd rfl (h u)

theorem last_none (v : Bool) {c : Char} {y : List Char} (hy : ∀ u, y ≠ c :: u) (w : Nat) :
    ∃ r, Parser.map (Parsers.token v c) (fun _ => ()) ⟨.endOfInput, y⟩ w = .ok (r, w) ∧ ∀ j u, r ≠ .data j u := by
  rcases Work.token_cases (σ := Nat) v c y with ⟨z, hz, _⟩ | ⟨_, r, h1, h2⟩
  · exact absurd hz (hy z)
  · exact Work.map_fails (h1 w) h2 _

theorem backtracking_at (v : Bool) {p} (hp : Means (backtracking v) p) (x : List Char) (w : Nat) :
    p () ⟨.endOfInput, x⟩ w = Comb.or
      (Parser.andThen id (Parsers.token v 'a') (Parser.andThen id (p ()) (Parser.map (Parsers.token v 'b') fun _ => ())))
      (Comb.or (Parser.andThen id (Parsers.token v 'a') (Parser.andThen id (p ())
        (Parser.map (Parsers.token v 'c') fun _ => ()))) (Parser.ret ())) ⟨.endOfInput, x⟩ (w + 1) :=
  congrFun (congrFun (C90_equation (backtracking v) (backtracking_body v) p hp ()) _) w

theorem factored_at (v : Bool) {p} (hp : Means (factored v) p) (x : List Char) (w : Nat) :
    p () ⟨.endOfInput, x⟩ w = Comb.or
      (Parser.andThen id (Parsers.token v 'a') (Parser.andThen id (p ())
        (Parser.map (Comb.or (Parsers.token v 'b') (Parsers.token v 'c')) fun _ => ())))
      (Parser.ret ()) ⟨.endOfInput, x⟩ (w + 1) :=
  congrFun (congrFun (C90_equation (factored v) (factored_body v) p hp ()) _) w

/-- `fn s(i) { or(i, |i| a then s then b, |i| or(i, |i| a then s then c, |i| i.ret(()))) }` is called
`2 ^ (n + 1) - 1` times on `n` times `a`. -/
theorem C104_exponential (v : Bool) {p} (hp : Means (backtracking v) p) (n w : Nat) :
    p () ⟨.endOfInput, List.replicate n 'a'⟩ w =
      .ok (.data ⟨.endOfInput, List.replicate n 'a'⟩ (), w + (2 ^ (n + 1) - 1)) := by
  induction n generalizing w with
  | zero =>
    rw [backtracking_at v hp]
    have hx : ∀ z, List.replicate 0 'a' ≠ 'a' :: z := nofun
    obtain ⟨r, h1, h2⟩ := branch_none v hx id
      (Parser.andThen id (p ()) (Parser.map (Parsers.token v 'b') fun _ => ())) (w + 1)
    obtain ⟨r', h1', h2'⟩ := branch_none v hx id
      (Parser.andThen id (p ()) (Parser.map (Parsers.token v 'c') fun _ => ())) (w + 1)
    rw [Work.or_fails h1 h2, Work.or_fails h1' h2']
    rfl
  | succ n ih =>
    have hy : ∀ c, c ≠ 'a' → ∀ u, List.replicate n 'a' ≠ c :: u := by
      intro c hc u he
      cases n with
      | zero => cases he
      | succ n => cases he; exact hc rfl
    rw [backtracking_at v hp]
    obtain ⟨r, h1, h2⟩ := last_none v (hy 'b' (by decide)) (w + 1 + (2 ^ (n + 1) - 1))
    obtain ⟨r', h1', h2'⟩ := last_none v (hy 'c' (by decide)) (w + 1 + (2 ^ (n + 1) - 1) + (2 ^ (n + 1) - 1))
    rw [List.replicate_succ, Work.or_fails ((branch_some v ih _).trans h1) h2,
      Work.or_fails ((branch_some v ih _).trans h1') h2']
    have : 0 < 2 ^ (n + 1) := Nat.two_pow_pos _
    have e : w + 1 + (2 ^ (n + 1) - 1) + (2 ^ (n + 1) - 1) = w + (2 ^ (n + 1 + 1) - 1) := by
      rw [Nat.pow_succ 2 (n + 1)]
      omega
    rw [e]
    rfl

/-- `fn s(i) { or(i, |i| a then s then (b or c), |i| i.ret(())) }` gives the same results, and is called
at most once more than there are items. -/
theorem C104_factored (v : Bool) {p q} (hp : Means (backtracking v) p) (hq : Means (factored v) q) (x : List Char) :
    ∃ y k l, (∀ w, p () ⟨.endOfInput, x⟩ w = .ok (.data ⟨.endOfInput, y⟩ (), w + k)) ∧
      (∀ w, q () ⟨.endOfInput, x⟩ w = .ok (.data ⟨.endOfInput, y⟩ (), w + l)) ∧ l ≤ x.length + 1 := by
  induction x with
  | nil =>
    have hx : ∀ z, ([] : List Char) ≠ 'a' :: z := nofun
    refine ⟨[], 1, 1, fun w => ?_, fun w => ?_, Nat.le_refl _⟩
    · rw [backtracking_at v hp]
      obtain ⟨r, h1, h2⟩ := branch_none v hx id
        (Parser.andThen id (p ()) (Parser.map (Parsers.token v 'b') fun _ => ())) (w + 1)
      obtain ⟨r', h1', h2'⟩ := branch_none v hx id
        (Parser.andThen id (p ()) (Parser.map (Parsers.token v 'c') fun _ => ())) (w + 1)
      rw [Work.or_fails h1 h2, Work.or_fails h1' h2']
      rfl
    · rw [factored_at v hq]
      obtain ⟨r, h1, h2⟩ := branch_none v hx id (Parser.andThen id (q ())
        (Parser.map (Comb.or (Parsers.token v 'b') (Parsers.token v 'c')) fun _ => ())) (w + 1)
      rw [Work.or_fails h1 h2]
      rfl
  | cons c z ih =>
    by_cases hc : c = 'a'
    · subst hc
      obtain ⟨y, k, l, h1, h2, h3⟩ := ih
      have hl : 1 + l ≤ ('a' :: z).length + 1 := by rw [List.length_cons]; omega
      by_cases hb : ∃ u, y = 'b' :: u
      · obtain ⟨u, rfl⟩ := hb
        refine ⟨u, 1 + k, 1 + l, fun w => ?_, fun w => ?_, hl⟩
        · rw [backtracking_at v hp, Work.or_data ((branch_some v h1 _).trans (last_some v 'b' u _)),
            Nat.add_assoc]
        · have hm : Comb.or (Parsers.token v 'b') (Parsers.token v 'c') ⟨.endOfInput, 'b' :: u⟩ (w + 1 + l) =
              .ok (.data ⟨.endOfInput, u⟩ 'b', w + 1 + l) := by
            rcases Work.token_cases (σ := Nat) v 'b' ('b' :: u) with ⟨z', hz, h⟩ | ⟨h, _⟩
            · cases hz; exact Work.or_data (h _) _
            · exact absurd rfl (h u)
          rw [factored_at v hq, Work.or_data ((branch_some v h2 _).trans (Work.map_data hm _)), Nat.add_assoc]
      · have hb : ∀ u, y ≠ 'b' :: u := fun u hu => hb ⟨u, hu⟩
        by_cases hc : ∃ u, y = 'c' :: u
        · obtain ⟨u, rfl⟩ := hc
          refine ⟨u, 1 + k + k, 1 + l, fun w => ?_, fun w => ?_, hl⟩
          · obtain ⟨r, g1, g2⟩ := last_none v hb (w + 1 + k)
            rw [backtracking_at v hp, Work.or_fails ((branch_some v h1 _).trans g1) g2,
              Work.or_data ((branch_some v h1 _).trans (last_some v 'c' u _)), Nat.add_assoc, Nat.add_assoc,
              Nat.add_assoc]
          · have hm : Comb.or (Parsers.token v 'b') (Parsers.token v 'c') ⟨.endOfInput, 'c' :: u⟩ (w + 1 + l) =
                .ok (.data ⟨.endOfInput, u⟩ 'c', w + 1 + l) := by
              rcases Work.token_cases (σ := Nat) v 'b' ('c' :: u) with ⟨z', hz, h⟩ | ⟨_, r, g1, g2⟩
              · cases hz
              · rw [Work.or_fails (g1 _) g2]
                rcases Work.token_cases (σ := Nat) v 'c' ('c' :: u) with ⟨z', hz, h⟩ | ⟨h, _⟩
                · cases hz; exact h _
                · exact absurd rfl (h u)
            rw [factored_at v hq, Work.or_data ((branch_some v h2 _).trans (Work.map_data hm _)), Nat.add_assoc]
        · have hc : ∀ u, y ≠ 'c' :: u := fun u hu => hc ⟨u, hu⟩
          refine ⟨'a' :: z, 1 + k + k, 1 + l, fun w => ?_, fun w => ?_, hl⟩
          · obtain ⟨r, g1, g2⟩ := last_none v hb (w + 1 + k)
            obtain ⟨r', g1', g2'⟩ := last_none v hc (w + 1 + k + k)
            rw [backtracking_at v hp, Work.or_fails ((branch_some v h1 _).trans g1) g2,
              Work.or_fails ((branch_some v h1 _).trans g1') g2', Nat.add_assoc, Nat.add_assoc, ← Nat.add_assoc 1]
            rfl
          · have hm : ∃ r, Comb.or (Parsers.token v 'b') (Parsers.token v 'c') ⟨.endOfInput, y⟩ (w + 1 + l) =
                .ok (r, w + 1 + l) ∧ ∀ j u, r ≠ .data j u := by
              rcases Work.token_cases (σ := Nat) v 'b' y with ⟨z', hz, h⟩ | ⟨_, r, g1, g2⟩
              · exact absurd hz (hb z')
              · rw [Work.or_fails (g1 _) g2]
                rcases Work.token_cases (σ := Nat) v 'c' y with ⟨z', hz, h⟩ | ⟨_, r, g1, g2⟩
                · exact absurd hz (hc z')
                · exact ⟨r, g1 _, g2⟩
            obtain ⟨r, g1, g2⟩ := hm
            obtain ⟨r', g1', g2'⟩ := Work.map_fails g1 g2 fun _ => ()
            rw [factored_at v hq, Work.or_fails ((branch_some v h2 _).trans g1') g2', Nat.add_assoc]
            rfl
    · have hx : ∀ z', c :: z ≠ 'a' :: z' := fun z' he => hc (by cases he; rfl)
      refine ⟨c :: z, 1, 1, fun w => ?_, fun w => ?_, by rw [List.length_cons]; omega⟩
      · rw [backtracking_at v hp]
        obtain ⟨r, h1, h2⟩ := branch_none v hx id
          (Parser.andThen id (p ()) (Parser.map (Parsers.token v 'b') fun _ => ())) (w + 1)
        obtain ⟨r', h1', h2'⟩ := branch_none v hx id
          (Parser.andThen id (p ()) (Parser.map (Parsers.token v 'c') fun _ => ())) (w + 1)
        rw [Work.or_fails h1 h2, Work.or_fails h1' h2']
        rfl
      · rw [factored_at v hq]
        obtain ⟨r, h1, h2⟩ := branch_none v hx id (Parser.andThen id (q ())
          (Parser.map (Comb.or (Parsers.token v 'b') (Parsers.token v 'c')) fun _ => ())) (w + 1)
        rw [Work.or_fails h1 h2]
        rfl

/-! ### Streams -/

section
variable {S B : Type} [DataSource S I] [HonestSource S I] [Buffer B I] [LawfulBuffer B I]

/-- `parse` until the answer is not to retry: each of the runs adds at most what it may add on all that is
ahead, and there are at most two runs more than there are items ahead, however the data is cut. -/
theorem C104_stream {rem : S → List I} {errs : S → Nat} (hd : Delivers S rem errs) (chk : Bool) {b : Nat → Nat}
    {p : Parser σ I T E} (hb : Work m b p) (s s' : Source S B) (h : Usable s) (ha : s.state.automaticFill = true)
    (hq : ∀ x y w n w', ahead rem s = x ++ y → p ⟨.default, x⟩ w = .ok (.incomplete n, w') →
      1 ≤ n ∧ x.length + n ≤ usizeMax)
    (w w' : σ) (r : Except (StreamError I E) T) (hr : retry chk p s w = .ok ((r, s'), w')) :
    m w' ≤ m w + ((ahead rem s).length + 2) * b (ahead rem s).length := by
  have h1 := C77_recorded chk p s w []
  rw [hr] at h1
  match hl : retry chk (recorded p) s (w, []), h1 with
  | .ok ((r1, s1), (w1, log)), h1 =>
    cases h1
    have h2 := Work.retry_sum (Work.adds hb) chk s _ w _ _ log hl
    have h3 := C77_count hd chk p s _ h ha hq w _ _ log hl
    have h4 := (C77_runs hd chk p s _ h ha (fun x y w n w' h1 h2 => (hq x y w n w' h1 h2).2) w _ _ log hl).1
    have h5 := Work.sum_le (l := log) (f := fun a => b a.size) (k := b (ahead rem s).length) fun a hm =>
      Work.grows hb _ _ (h4 a hm).1.length_le
    have h6 := Nat.mul_le_mul_right (b (ahead rem s).length) h3
    show m w1 ≤ _
    omega

end

/-! ### Concrete cases -/

namespace WorkExample

/-- a predicate which counts how often it is asked -/
def digit : Char → M Nat Bool := fun c w => .ok (c.isDigit, w + 1)

/-- `sep_by(take_while1(digit), token(','))` -/
def numbers (v : Bool) : Parser Nat Char (List (List Char)) (Error Char) :=
  Comb.sepBy id (Collect.vec _) (Closures.takeWhile1 v digit) (Parsers.token v ',')

theorem digit_counted (c : Char) : Counted (fun n => n) (digit c) := by
  intro w x w' e; cases e; exact Nat.le_refl _

theorem comma_consumes (v : Bool) : Consumes (Parsers.token (σ := Nat) v ',') :=
  fun i w i' t w' => C69_consumes (.token v ',') i i' t w w'

theorem numbers_work (v : Bool) : Work (fun n => n) (fun n => (n + 2) * (n + 0)) (numbers v) :=
  .sepBy id _ (.inr (comma_consumes v)) (.takeWhile1M v digit digit_counted)
    (.silent (.token v ',') (token_silent v ','))

/-- C104_bound, C104_degree: the predicate is asked at most `(n + 2) * n` times. -/
example : Degree 2 fun n => (n + 2) * (n + 0) := C104_degree.2.2.2.2.1 1 _ 2 C104_degree.2.1

/-- C104_parse_only: at most 48 times for `12,345`. -/
example (v : Bool) (r w') (h : parseOnly (numbers v) ['1', '2', ',', '3', '4', '5'] 0 = .ok (r, w')) :
    w' ≤ 0 + 48 :=
  C104_parse_only (numbers_work v) _ 0 w' r h

/-- C104_attained: 55 calls of the closure in two nested repetitions on nine items. -/
example (v : Bool) : ∃ i, nest v 2 ⟨.endOfInput, List.replicate 9 'a'⟩ 0 = .ok (.data i (), 0 + 55) :=
  C104_attained v 2 9 0

/-- C104_exponential, C104_factored: 2047 calls and at most 11 calls for ten times `a`. -/
example (v : Bool) : ∃ p q, Means (backtracking v) p ∧ Means (factored v) q ∧
    p () ⟨.endOfInput, List.replicate 10 'a'⟩ 0 = .ok (.data ⟨.endOfInput, List.replicate 10 'a'⟩ (), 0 + 2047) ∧
    ∃ l, l ≤ 11 ∧
      q () ⟨.endOfInput, List.replicate 10 'a'⟩ 0 = .ok (.data ⟨.endOfInput, List.replicate 10 'a'⟩ (), 0 + l) := by
  obtain ⟨p, hp, _⟩ := C90_exists (backtracking v) (backtracking_body v)
  obtain ⟨q, hq, _⟩ := C90_exists (factored v) (factored_body v)
  refine ⟨p, q, hp, hq, C104_exponential v hp 10 0, ?_⟩
  obtain ⟨y, k, l, h1, h2, h3⟩ := C104_factored v hp hq (List.replicate 10 'a')
  refine ⟨l, h3, ?_⟩
  have h4 := (h1 0).symm.trans (C104_exponential v hp 10 0)
  have h5 : y = List.replicate 10 'a' := by injection h4 with h4; injection h4 with h4 _; injection h4 with h4 _; injection h4
  rw [← h5]
  have := h2 0
  rw [← h5] at this
  exact this

/-- C104_stream: its hypotheses hold for the numbers of any `Script`. -/
example (v chk : Bool) (d : Script Char) (hl : d.rem.length + 1 ≤ usizeMax)
    (s' : Source (Script Char) (FixedSizeBuffer Char)) (r) (w' : Nat)
    (hr : retry chk (numbers v) (Source.withBuffer d ⟨List.replicate 8 none, 0, 0⟩) 0 = .ok ((r, s'), w')) :
    w' ≤ 0 + (d.rem.length + 2) * ((d.rem.length + 2) * (d.rem.length + 0)) := by
  obtain ⟨h1, _⟩ := (C48_new (S := Script Char) (B := FixedSizeBuffer Char)).2.1 8 _ rfl
  have hp : Productive false (numbers v) :=
    .sepBy (a := true) (b := true) id _ (.inl rfl) (.takeWhile1M v digit fun _ _ => ⟨nofun, nofun⟩) (.token v ',')
  have hb : Built ⟨true, true, some 1⟩ (numbers v) :=
    .sepBy id _ (.takeWhile1M v digit nofun) (.token v ',')
  refine C104_stream Script.delivers chk (numbers_work v) (Source.withBuffer d _) s' h1 rfl
    (fun x y w n w' hx hn => ?_) 0 w' r hr
  have e := congrArg List.length (show d.rem = x ++ y from hx)
  rw [List.length_append] at e
  have h2 := C69_positive hp _ _ _ _ hn
  have h3 := C66_request (a := ⟨true, true, some 1⟩) rfl hb _ _ _ _ hn
  omega

end WorkExample

end Chomp.Props
