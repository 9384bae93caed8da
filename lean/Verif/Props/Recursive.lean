import Verif.Lemmas.Guarded
import Verif.Lemmas.Http
import Verif.Props.Built

/-
C90, C91: functions which call themselves or each other. `F p k` is the body of function `k`, in which
`p j` is a call of function `j`; `Means F p` says that `p` are the functions with these bodies
(Verif/Spec/Recursive.lean).
-/

namespace Chomp.Props

open Spec

variable {K : Type} {σ I : Type} {T E : K → Type}

/-! ### C90: recursive functions are parsers like any other -/

/-- There is exactly one family of functions with given bodies. -/
theorem C90_exists {a : Allow} (F : Fns σ I T E → Fns σ I T E) (hF : ∀ k, Body a (fun q => F q k)) :
    ∃ p, Means F p ∧ ∀ p', Means F p' → p' = p := by
  have hF' : Recursive.Finitary F := fun q k => Recursive.body_dep (hF k) q
  refine ⟨_, Recursive.meaning_means hF', fun p' hp' => ?_⟩
  funext k i w
  have h := Recursive.meaning_means hF'
  by_cases hd : p' k i w = .div
  · refine Classical.byContradiction fun hne => ?_
    have hm : Recursive.meaning F k i w ≠ .div := fun e => hne (hd.trans e.symm)
    have := (hp' k i w _ hm).mpr ((h k i w _ hm).mp rfl)
    exact hne this
  · exact ((h k i w _ hd).mpr ((hp' k i w _ hd).mp rfl)).symm

/-- A call does what the body does. -/
theorem C90_equation {a : Allow} (F : Fns σ I T E → Fns σ I T E) (hF : ∀ k, Body a (fun q => F q k))
    (p : Fns σ I T E) (hp : Means F p) (k : K) : p k = F p k :=
  Recursive.Means.eq (fun q k => Recursive.body_dep (hF k) q) hp k

/-- Wherever a call returns, it returns what any other functions which satisfy the equations return. -/
theorem C90_least {a : Allow} (F : Fns σ I T E → Fns σ I T E) (hF : ∀ k, Body a (fun q => F q k))
    (p : Fns σ I T E) (hp : Means F p) (q : Fns σ I T E) (hq : ∀ k, q k = F q k) (k : K) :
    LessDefined (p k) (q k) :=
  Recursive.Means.least (fun q k => Recursive.body_dep (hF k) q) hp hq k

/-- Functions whose bodies are assembled from the library count as assembled from the library: all that is
said about `Built` parsers holds for them. -/
theorem C90_assembled {a : Allow} (F : Fns σ I T E → Fns σ I T E) (hF : ∀ k, Body a (fun q => F q k))
    (p : Fns σ I T E) (hp : Means F p) (k : K) : Built a (p k) :=
  Recursive.means_built hF hp k

/-- For example: what is left is an end of the input. -/
theorem C90_remainder (F : Fns σ I T E → Fns σ I T E) (hF : ∀ k, Body everything (fun q => F q k))
    (p : Fns σ I T E) (hp : Means F p) (k : K) (i i' : Input I) (t : T k) (w w' : σ)
    (h : p k i w = .ok (.data i' t, w')) : i'.mode = i.mode ∧ ∃ x, i.buf = x ++ i'.buf :=
  C05_remainder (C90_assembled F hF p hp k) i i' t w w' h

/-- No panic if no part can panic. -/
theorem C90_no_panic (F : Fns σ I T E → Fns σ I T E) (hF : ∀ k, Body panicFree (fun q => F q k))
    (p : Fns σ I T E) (hp : Means F p) (k : K) (i : Input I) (w : σ) : p k i w ≠ .panic :=
  C06_no_panic (C90_assembled F hF p hp k) i w

/-- Results do not depend on where the input is cut. -/
theorem C90_stable (F : Fns σ I T E → Fns σ I T E) (hF : ∀ k, Body streaming (fun q => F q k))
    (p : Fns σ I T E) (hp : Means F p) (k : K) : Stable (p k) :=
  C07_stable (C90_assembled F hF p hp k)

/-! ### C91: when recursion ends -/

/-- If there is a ranking of the functions such that every body consumes an item before it calls a function
which is not of lower rank, then every call returns, whatever the input. `u k` tells which functions
consume. -/
theorem C91_returns (u : K → Bool) (rk : K → Nat) (F : Fns σ I T E → Fns σ I T E)
    (hF : ∀ k, Guarded u rk (some (rk k)) (u k) (fun q => F q k)) (p : Fns σ I T E) (hp : ∀ k, p k = F p k) (k : K)
    (i : Input I) (w : σ) : p k i w ≠ .div :=
  (Recursive.solution_sound hF hp k i w).2

/-- Those functions do consume, and the others do not make up input. -/
theorem C91_consumes (u : K → Bool) (rk : K → Nat) (F : Fns σ I T E → Fns σ I T E)
    (hF : ∀ k, Guarded u rk (some (rk k)) (u k) (fun q => F q k)) (p : Fns σ I T E) (hp : ∀ k, p k = F p k) (k : K)
    (i i' : Input I) (t : T k) (w w' : σ) (h : p k i w = .ok (.data i' t, w')) :
    i'.buf.length + (u k).toNat ≤ i.buf.length := by
  have := (Recursive.solution_sound hF hp k i w).1
  rw [h] at this
  exact this

/-- Nothing undefined is done. -/
theorem C91_defined (u : K → Bool) (rk : K → Nat) (F : Fns σ I T E → Fns σ I T E)
    (hF : ∀ k, Guarded u rk (some (rk k)) (u k) (fun q => F q k)) (p : Fns σ I T E) (hp : ∀ k, p k = F p k) (k : K)
    (i : Input I) (w : σ) : p k i w ≠ .ub := by
  intro h
  have := (Recursive.solution_sound hF hp k i w).1
  rw [h] at this
  exact this

/-- With `R` ranks, calls are nested at most `R` deep for each item in the slice, and `R` more. -/
theorem C91_depth (u : K → Bool) (rk : K → Nat) (R : Nat) (hR : ∀ k, rk k < R)
    (F : Fns σ I T E → Fns σ I T E) (hF : ∀ k, Guarded u rk (some (rk k)) (u k) (fun q => F q k))
    (p : Fns σ I T E) (hp : ∀ k, p k = F p k) (k : K) (i : Input I) (w : σ) (n : Nat)
    (hn : R * (i.buf.length + 1) ≤ n) : nested F n k i w = p k i w := by
  have := hR k
  rw [Nat.mul_add] at hn
  exact Recursive.solution_nested hF hR hp n k i w (by omega)

/-- The equations determine the functions, with any number of ranks. -/
theorem C91_unique (u : K → Bool) (rk : K → Nat) (F : Fns σ I T E → Fns σ I T E)
    (hF : ∀ k, Guarded u rk (some (rk k)) (u k) (fun q => F q k))
    (p q : Fns σ I T E) (hp : ∀ k, p k = F p k) (hq : ∀ k, q k = F q k) : p = q := by
  funext k i w
  exact (Recursive.solution_unique hF hp hq k i w).symm

/-- Left recursion does not return: if each of some functions first calls one of them, on the input it was
given, then a call of any of them goes on for ever. -/
theorem C91_left (F : Fns σ I T E → Fns σ I T E) (p : Fns σ I T E) (hp : Means F p) (S : K → Prop)
    (hS : ∀ k, S k → ∃ j, S j ∧ Leads j (fun q => F q k)) (k : K) (hk : S k) (i : Input I) (w : σ) :
    p k i w = .div := by
  have key : ∀ n k, S k → nested F n k i w = .div := by
    intro n
    induction n with
    | zero => exact fun _ _ => rfl
    | succ n ih =>
      intro k hk
      obtain ⟨j, hj, hl⟩ := hS k hk
      exact Recursive.leads_div hl (ih j hj)
  refine Classical.byContradiction fun hne => ?_
  obtain ⟨n, hn⟩ := (hp k i w _ hne).mp rfl
  exact hne (hn.symm.trans (key n k hk))

/-! ### Examples -/

namespace RecursiveEx

/-- `fn nest(i) { or(i, |i| parse!{i; token('('); let n = nest(); token(')'); ret n + 1}, |i| i.ret(0)) }`:
the depth of a nest of brackets. -/
def nestBody (q : Fns Unit Char (fun _ : Unit => Nat) (fun _ => Error Char)) :
    Fns Unit Char (fun _ : Unit => Nat) (fun _ => Error Char) := fun _ =>
  Comb.or
    (Parser.andThen id (Parsers.token true '(') <| Parser.bind id (q ()) fun n =>
      Parser.andThen id (Parsers.token true ')') (Parser.ret (n + 1)))
    (Parser.ret 0)

theorem nest_body (a : Allow) (k : Unit) : Body a (fun q => nestBody q k) :=
  .or (.andThen (.const (.token _ _)) <| .bind (.call ()) fun _ => .andThen (.const (.token _ _)) (.const (.ret _)))
    (.const (.ret _))

theorem nest_guarded (k : Unit) : Guarded (fun _ => false) (fun _ => 0) (some 0) false (fun q => nestBody q k) :=
  .or (c := true) (d := false)
    (.andThen (c := true) (d := true) (.const (.token _ _)) <|
      .bind (c := false) (d := true) (.call () nofun) fun _ =>
        .andThen (c := true) (d := false) (.const (.token _ _)) (.const (.ret _)))
    (.const (.ret _))

variable (p : Fns Unit Char (fun _ : Unit => Nat) (fun _ => Error Char)) (hp : Means nestBody p)

/-- It returns on every input, without a panic. -/
example (i : Input Char) : p () i () ≠ .div ∧ p () i () ≠ .panic :=
  ⟨C91_returns _ _ nestBody nest_guarded p (C90_equation (a := panicFree) nestBody (nest_body _) p hp) () i (),
    C90_no_panic nestBody (nest_body _) p hp () i ()⟩

theorem nest_open {q : Fns Unit Char (fun _ : Unit => Nat) (fun _ => Error Char)} {m : Mode}
    {x rest : List Char} {n : Nat} (h : q () ⟨m, x⟩ () = .ok (.data ⟨m, ')' :: rest⟩ n, ())) :
    nestBody q () ⟨m, '(' :: x⟩ () = .ok (.data ⟨m, rest⟩ (n + 1), ()) := by
  refine (M.bind_ok (a := ParseResult.data ⟨m, rest⟩ (n + 1)) (w' := ()) ?_).trans rfl
  exact Http.andThen_data.mpr ⟨⟨m, x⟩, '(', (), Http.token_data.mpr ⟨rfl, rfl, rfl, rfl⟩,
    Http.bind_data.mpr ⟨⟨m, ')' :: rest⟩, n, (), h,
      Http.andThen_data.mpr ⟨⟨m, rest⟩, ')', (), Http.token_data.mpr ⟨rfl, rfl, rfl, rfl⟩, rfl⟩⟩⟩

include hp in
/-- It counts, however deep the brackets are nested. -/
theorem nest_counts (m : Mode) (n : Nat) (rest : List Char) :
    p () ⟨m, List.replicate n '(' ++ (List.replicate n ')' ++ ')' :: rest)⟩ () =
      .ok (.data ⟨m, ')' :: rest⟩ n, ()) := by
  have eq := C90_equation (a := everything) nestBody (nest_body _) p hp ()
  induction n generalizing rest with
  | zero => rw [eq]; rfl
  | succ n ih =>
    rw [eq, List.replicate_succ, List.replicate_succ', List.append_assoc]
    exact nest_open (ih (')' :: rest))

theorem depth_reached (n : Nat) (m : Mode) (rest : List Char) :
    nested nestBody n () ⟨m, List.replicate n '(' ++ rest⟩ () = .div := by
  induction n with
  | zero => rfl
  | succ n ih =>
    show nestBody (nested nestBody n) () ⟨m, '(' :: (List.replicate n '(' ++ rest)⟩ () = .div
    refine Recursive.bind_div ?_
    refine (M.bind_ok (a := ParseResult.data ⟨m, List.replicate n '(' ++ rest⟩ '(') (w' := ()) ?_).trans ?_
    · exact Http.token_data.mpr ⟨rfl, rfl, rfl, rfl⟩
    · exact Recursive.bind_div (Recursive.bind_div ih)

/-- A list in brackets, of lists and decimal digits separated by commas: two functions which call each
other. `false` is the element, `true` is the list; both count the digits. -/
def listBody (q : Fns Unit Char (fun _ : Bool => Nat) (fun _ => Error Char)) :
    Fns Unit Char (fun _ : Bool => Nat) (fun _ => Error Char)
  | false => Comb.or (Parser.map (Parsers.satisfy true Char.isDigit) fun _ => 1) (q true)
  | true =>
    Parser.andThen id (Parsers.token true '[') <|
    Parser.bind id (Comb.sepBy id (Collect.vec Nat) (q false) (Parsers.token true ',')) fun l =>
    Parser.andThen id (Parsers.token true ']') (Parser.ret l.sum)

theorem list_body (a : Allow) (k : Bool) : Body a (fun q => listBody q k) := by
  cases k with
  | false => exact .or (.map _ (.const (.satisfy _ _))) (.call true)
  | true =>
    exact .andThen (.const (.token _ _)) <| .bind (.sepBy _ _ (.call false) (.const (.token _ _))) fun _ =>
      .andThen (.const (.token _ _)) (.const (.ret _))

/-- The element calls the list before it has consumed anything, so it has the higher rank; the list calls the
element after the bracket. -/
theorem list_guarded (k : Bool) :
    Guarded (fun _ => true) (fun k => if k then 0 else 1) (some (if k then 0 else 1)) true
      (fun q => listBody q k) := by
  cases k with
  | false =>
    exact .or (c := true) (d := true) (.map _ (.const (.satisfy _ _)))
      (.call true fun r h => by cases h; decide)
  | true =>
    exact .andThen (c := true) (d := true) (.const (.token _ _)) <|
      .bind (c := false) (d := true)
        (.sepBy (g := none) _ _ (.inl rfl) (.call false nofun) (.const (c := true) (.token _ _)))
        fun _ => .andThen (c := true) (d := false) (.const (.token _ _)) (.const (.ret _))

/-- The two functions return on every input, and each success consumes. -/
example (p : Fns Unit Char (fun _ : Bool => Nat) (fun _ => Error Char)) (hp : Means listBody p) (k : Bool)
    (i : Input Char) :
    p k i () ≠ .div ∧ ∀ i' t, p k i () = .ok (.data i' t, ()) → i'.buf.length + 1 ≤ i.buf.length := by
  have eq := C90_equation (a := everything) listBody (list_body _) p hp
  exact ⟨C91_returns _ _ listBody list_guarded p eq k i (),
    fun i' t h => C91_consumes _ _ listBody list_guarded p eq k i i' t () () h⟩

/-- `fn expr(i) { or(i, |i| parse!{i; expr(); token('+'); digit()}, digit) }` -/
def exprBody (q : Fns Unit Char (fun _ : Unit => Char) (fun _ => Error Char)) :
    Fns Unit Char (fun _ : Unit => Char) (fun _ => Error Char) := fun _ =>
  Comb.or (Parser.andThen id (q ()) <| Parser.andThen id (Parsers.token true '+') (Parsers.satisfy true Char.isDigit))
    (Parsers.satisfy true Char.isDigit)

/-- The left recursive grammar of sums does not return even on a single digit. -/
example (p : Fns Unit Char (fun _ : Unit => Char) (fun _ => Error Char)) (hp : Means exprBody p) :
    p () ⟨.endOfInput, ['1']⟩ () = .div :=
  C91_left exprBody p hp (fun _ => True) (fun _ _ => ⟨(), trivial, .or (.andThen .call)⟩) () trivial _ _

end RecursiveEx

open RecursiveEx in
/-- The bound on the depth is reached: for every number there is an input of as many items, and one function
in one rank, which does not make do with that depth. Whoever writes the input decides how deep the calls are
nested. -/
theorem C91_depth_reached (n : Nat) :
    ∃ (F : Fns Unit Char (fun _ : Unit => Nat) (fun _ => Error Char) → Fns Unit Char _ _) (i : Input Char),
      (∀ k, Guarded (fun _ => false) (fun _ => 0) (some 0) false (fun q => F q k)) ∧ i.buf.length = n ∧
      nested F n () i () = .div :=
  ⟨nestBody, ⟨.endOfInput, List.replicate n '(' ++ []⟩, nest_guarded, by simp, depth_reached n _ _⟩

end Chomp.Props
