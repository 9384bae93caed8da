import Verif.Lemmas.Records
import Verif.Lemmas.Http

/-
Lemmas for C63 and C70: the program of the HTTP example in terms of `Spec.records`.
-/

namespace Chomp

open Spec

/-! ### `ReadDataSource` -/

instance [DataSource R UInt8] [HonestSource R UInt8] : HonestSource (ReadDataSource R) UInt8 where
  honest s k n h := HonestSource.honest s.inner k n h

theorem ReadDataSource.delivers [DataSource R UInt8] {rem : R → List UInt8} {errs : R → Nat}
    (hd : Delivers R rem errs) :
    Delivers (ReadDataSource R) (fun s => rem s.inner) (fun s => errs s.inner) where
  ok s k n h := hd.ok s.inner k n h
  err s k e h := hd.err s.inner k e h

/-! ### Loops -/

/-- Doing something with the result of a loop, inside of the loop. -/
theorem loop_finish {g : S → M σ (S ⊕ R)} {f : S → M σ (S ⊕ Q)} {k : R → Res Q}
    (hf : ∀ s w, f s w = g s w >>= fun x => match x with
      | (.inl s', w') => .ok (.inl s', w')
      | (.inr r, w') => k r >>= fun q => .ok (.inr q, w'))
    {s : S} {w : σ} (h : loop g s w ≠ .div) :
    loop f s w = loop g s w >>= fun x => k x.1 >>= fun q => .ok (q, x.2) := by
  have hr := loop_run s w h
  generalize loop g s w = o at hr
  induction hr with
  | brk hs =>
    rw [loop_apply, hf, hs]
    simp only [Res.bind_ok]
    rename_i r _
    cases k r <;> rfl
  | panic hs => rw [loop_apply, hf, hs]; rfl
  | ub hs => rw [loop_apply, hf, hs]; rfl
  | cont hs hr ih =>
    rw [loop_apply, hf, hs]
    simp only [Res.bind_ok]
    exact ih (hr.loop_eq ▸ hr.ne_div)

namespace Http

/-- Adding one for each request. -/
def tick (chk : Bool) (n : Int) (_ : Request × List Header) : Res Int := (counter chk).num.add n 1

/-- What `main` does with the outcome. -/
def outcome : Except (StreamError UInt8 (Error UInt8)) Int → Res Int
  | .ok n => .ok n
  | .error _ => .panic

theorem main_loop {S B : Type} [DataSource S UInt8] [Buffer B UInt8] (chk v : Bool) (s : Source S B)
    (n : Int) (w : σ) (h : records chk (request v) (tick chk) s n w ≠ .div) :
    loop (mainStep chk v) (s, n) w =
      records chk (request v) (tick chk) s n w >>= fun x => outcome x.1 >>= fun q => .ok (q, x.2) := by
  refine loop_finish ?_ h
  rintro ⟨s, n⟩ w
  unfold mainStep
  simp only [M.bind_apply]
  cases hx : s.parse chk (request v) w with
  | ok x =>
    obtain ⟨⟨r, s'⟩, w'⟩ := x
    simp only [Res.bind_ok]
    match r with
    | .ok t =>
      simp only [M.bind_apply, tick]
      cases (counter chk).num.add n 1 <;> rfl
    | .error .retry => rfl
    | .error .endOfInput => rfl
    | .error (.incomplete n) => rfl
    | .error (.parseError b e) => rfl
    | .error (.ioError e) => rfl
  | panic => rfl
  | ub => rfl
  | div => rfl

theorem tick_ne (chk : Bool) (n : Int) (t) : tick chk n t ≠ .div := by
  unfold tick Ascii.IntTy.num Ascii.IntTy.norm
  dsimp only
  split
  · exact nofun
  · split <;> exact nofun

/-- Counting. -/
theorem tick_fold (chk : Bool) : ∀ (xs : List (Request × List Header)) (n : Nat), n + xs.length < 2 ^ 31 →
    xs.foldlM (tick chk) (n : Int) = .ok ((n + xs.length : Nat) : Int)
  | [], n, _ => rfl
  | x :: xs, n, h => by
    rw [List.length_cons] at h
    have e : tick chk (n : Int) x = .ok ((n + 1 : Nat) : Int) := by
      unfold tick Ascii.IntTy.num Ascii.IntTy.norm
      dsimp only
      rw [if_pos]
      · rfl
      · simp [counter, Ascii.IntTy.min, Ascii.IntTy.max]
        omega
    rw [List.foldlM_cons, e, Res.bind_ok, tick_fold chk xs (n + 1) (by omega), List.length_cons,
      show n + 1 + xs.length = n + (xs.length + 1) by omega]

/-- A release build goes on at the other end of the range. -/
theorem tick_release (n : Int) (x) : tick false n x = .ok (Int.bmod (n + 1) (2 ^ 32)) := by
  unfold tick Ascii.IntTy.num Ascii.IntTy.norm
  dsimp only
  have h1 : (counter false).min = -2147483648 := by decide
  have h2 : (counter false).max = 2147483647 := by decide
  have h3 : (2 : Int) ^ (counter false).bits = 4294967296 := by decide
  have h4 : (counter false).checked = false := rfl
  rw [h1, h2, h3, h4, show (2 ^ 32 : Nat) = 4294967296 from by decide]
  split
  · congr 1
    rw [Int.bmod_def]
    split <;> omega
  · simp only [Bool.false_eq_true, if_false]
    congr 1
    rw [Int.bmod_def]
    split <;> omega

theorem tick_wrap : ∀ (xs : List (Request × List Header)) (n : Int),
    xs.foldlM (tick false) (Int.bmod n (2 ^ 32)) = .ok (Int.bmod (n + xs.length) (2 ^ 32))
  | [], n => by simp
  | x :: xs, n => by
    rw [List.foldlM_cons, tick_release, Res.bind_ok, Int.bmod_add_bmod, tick_wrap xs (n + 1),
      List.length_cons, show n + 1 + (xs.length : Int) = n + ((xs.length + 1 : Nat) : Int) by omega]

/-- A debug build stops when the counter overflows. -/
theorem tick_overflow : ∀ (xs : List (Request × List Header)) (n : Nat), n < 2 ^ 31 → 2 ^ 31 ≤ n + xs.length →
    xs.foldlM (tick true) (n : Int) = .panic
  | [], n, h, h' => by simp at h'; omega
  | x :: xs, n, h, h' => by
    rw [List.length_cons] at h'
    rw [List.foldlM_cons]
    by_cases hn : n + 1 < 2 ^ 31
    · have e : tick true (n : Int) x = .ok ((n + 1 : Nat) : Int) := by
        have := tick_fold true [x] n hn
        rw [List.foldlM_cons] at this
        cases ht : tick true (n : Int) x with
        | ok y => rw [ht] at this; exact this
        | _ => rw [ht] at this; cases this
      rw [e, Res.bind_ok, tick_overflow xs (n + 1) hn (by omega)]
    · have e : tick true (n : Int) x = .panic := by
        unfold tick Ascii.IntTy.num Ascii.IntTy.norm
        dsimp only
        rw [if_neg]
        · rfl
        · simp [counter, Ascii.IntTy.min, Ascii.IntTy.max]
          omega
      rw [e]
      rfl

end Http

end Chomp
