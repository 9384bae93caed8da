import Verif.Rust.Http
import Verif.Rust.Rest

/-
The text of `main` of /repo/examples/http_parser.rs does what its model says.
-/

set_option linter.unusedSimpArgs false

namespace Chomp.Rust

variable {σ Y S : Type}

/-! ### The length of the buffer -/

section
variable [Build] [DataSource S UInt8]

omit [Build] in
theorem m_bind_ok {x : M σ A} {f : A → M σ B} {w : σ} {r : B × σ} (h : (x >>= f) w = .ok r) :
    ∃ a w', x w = .ok (a, w') ∧ f a w' = .ok r := by
  obtain ⟨⟨a, w'⟩, h1, h2⟩ := bind_ok h
  exact ⟨a, w', h1, h2⟩

omit [Build] in
theorem m_lift_ok {x : Res A} {w : σ} {a : A} {w' : σ} (h : M.lift x w = .ok (a, w')) : x = .ok a := by
  cases x <;> cases h
  rfl

theorem fillStep_length (n : Nat) (x : S × FixedSizeBuffer UInt8 × Nat) (w : Unit)
    (r : (S × FixedSizeBuffer UInt8 × Nat) ⊕ (Except IoError Nat × S × FixedSizeBuffer UInt8)) (w' : Unit)
    (h : Source.fillStep Build.checked n x w = .ok (r, w')) :
    match r with
    | .inl y => y.2.1.buffer.length = x.2.1.buffer.length
    | .inr y => y.2.2.buffer.length = x.2.1.buffer.length := by
  unfold Source.fillStep at h
  obtain ⟨l, u, -, h⟩ := m_bind_ok h
  split at h
  · obtain ⟨⟨q, s, c⟩, u, hq, h⟩ := m_bind_ok h
    have hq := Fixed_inv_fill _ _ _ (m_lift_ok hq)
    match q, h with
    | .error e, h => cases h; exact hq
    | .ok 0, h => cases h; exact hq
    | .ok (k + 1), h =>
      obtain ⟨m, u, -, h⟩ := m_bind_ok h
      cases h
      exact hq
  · cases h
    rfl

theorem fillRequested_length (n : Nat) (s : Source S (FixedSizeBuffer UInt8)) (r : Except IoError Nat × Source S (FixedSizeBuffer UInt8))
    (h : s.fillRequested Build.checked n = .ok r) : r.2.buffer.buffer.length = s.buffer.buffer.length := by
  unfold Source.fillRequested at h
  obtain ⟨l, -, h⟩ := bind_ok h
  split at h
  · obtain ⟨d, -, h⟩ := bind_ok h
    obtain ⟨b, hb, h⟩ := bind_ok h
    have hb := Fixed_inv_request _ _ _ hb
    obtain ⟨x, hx, h⟩ := bind_ok h
    have hloop := loop_inv (f := Source.fillStep (S := S) (B := FixedSizeBuffer UInt8) Build.checked n)
      (fun x _ => x.2.1.buffer.length = b.buffer.length)
      (fun r => ∀ y, r = .ok y → y.1.2.2.buffer.length = b.buffer.length) nofun
      (fun x w hp => by
        rw [loop_apply]
        have hs := fillStep_length n x w
        cases hf : Source.fillStep Build.checked n x w with
        | ok q =>
          obtain ⟨q, w'⟩ := q
          have hs := hs _ _ hf
          cases q with
          | inl y => exact .inl ⟨_, _, rfl, hs.trans hp⟩
          | inr y => exact .inr fun z hz => by cases hz; exact hs.trans hp
        | _ => exact .inr fun z hz => by cases hz) (s := (s.source, b, 0)) (w := ()) rfl
    have := hloop _ hx
    obtain ⟨⟨q, s', c⟩, u⟩ := x
    cases h
    exact this.trans hb
  · cases h
    rfl

theorem fill_length (s : Source S (FixedSizeBuffer UInt8)) (r : Except IoError Nat × Source S (FixedSizeBuffer UInt8))
    (h : s.fill Build.checked = .ok r) : r.2.buffer.buffer.length = s.buffer.buffer.length := by
  unfold Source.fill at h
  obtain ⟨x, hx, h⟩ := bind_ok h
  have hl := fillRequested_length _ _ _ hx
  obtain ⟨q, s'⟩ := x
  cases q with
  | error e => cases h; exact hl
  | ok n =>
    obtain ⟨l, -, h⟩ := bind_ok h
    cases h
    exact hl

theorem consume_length (b c : FixedSizeBuffer UInt8) (n : Nat) (h : Buffer.consume Build.checked n b = .ok c) :
    c.buffer.length = b.buffer.length := by
  obtain ⟨_, -, h⟩ := bind_ok h
  obtain ⟨u, -, h⟩ := bind_ok h
  cases h
  rfl

theorem parse_length (p : Parser σ UInt8 T E) (s : Source S (FixedSizeBuffer UInt8)) (w : σ)
    (r : Except (StreamError UInt8 E) T × Source S (FixedSizeBuffer UInt8)) (w' : σ)
    (h : s.parse Build.checked p w = .ok (r, w')) : r.2.buffer.buffer.length = s.buffer.buffer.length := by
  rw [parse_rest] at h
  obtain ⟨⟨x, t⟩, u, hx, h⟩ := m_bind_ok h
  have ht : t.buffer.buffer.length = s.buffer.buffer.length := by
    split at hx
    · exact fill_length _ _ (m_lift_ok hx)
    · cases hx
      rfl
  rw [← ht]
  clear hx ht
  unfold parseRest at h
  cases x with
  | error e => cases h; rfl
  | ok n =>
    dsimp only at h
    obtain ⟨c, u, -, h⟩ := m_bind_ok h
    split at h
    · cases h; rfl
    · obtain ⟨b, u, -, h⟩ := m_bind_ok h
      obtain ⟨q, u, -, h⟩ := m_bind_ok h
      cases q with
      | data i a =>
        obtain ⟨l, u, -, h⟩ := m_bind_ok h
        obtain ⟨d, u, -, h⟩ := m_bind_ok h
        obtain ⟨b, u, hb, h⟩ := m_bind_ok h
        cases h
        exact consume_length _ _ _ (m_lift_ok hb)
      | error i a =>
        obtain ⟨l, u, -, h⟩ := m_bind_ok h
        obtain ⟨d, u, -, h⟩ := m_bind_ok h
        obtain ⟨b, u, hb, h⟩ := m_bind_ok h
        cases h
        exact consume_length _ _ _ (m_lift_ok hb)
      | incomplete k =>
        obtain ⟨l, u, -, h⟩ := m_bind_ok h
        obtain ⟨d, u, -, h⟩ := m_bind_ok h
        split at h <;> cases h <;> rfl

end

/-! ### The loop -/

attribute [-simp] bind_pure_comp

theorem Both.bind_ok {P : A → B → Prop} (x : M σ C) {f : C → M σ A} {g : C → M σ B}
    (h : ∀ c, (∃ w w', x w = .ok (c, w')) → Both P (f c) (g c)) : Both P (x >>= f) (x >>= g) := by
  intro w
  rw [M.bind_apply, M.bind_apply]
  cases hx : x w with
  | ok r => exact h r.1 ⟨w, r.2, hx⟩ r.2
  | _ => exact True.intro

variable {R : Type} [Build] (W : World σ UInt8 Y) [DataSource R UInt8] {num : Int → Y} (hP : Program W num) (y : R → Y)
  (hr : ∀ s k, W.read (y s) k = ((DataSource.read s k).1, y (DataSource.read s k).2))

/-- The arms of `match i.parse(request)`. -/
def mainArms : List Arm :=
  [.mk (.con "Ok" [.wild]) (.bool true) (.assign (.path "n") (.bin .add (.path "n") (.call (.path "i32") [.byte 1]))),
    .mk (.con "Err" [.con "StreamError::Retry" []]) (.bool true) (.tuple []),
    .mk (.con "Err" [.con "StreamError::EndOfInput" []]) (.bool true) .brk,
    .mk (.con "Err" [.bind false "e"]) (.bool true) (.seq .panic (.tuple []))]

/-- The body of the loop. -/
def mainTurn : Expr := .mtch (.method (.path "i") "parse" [.path "http::request"]) mainArms

/-- The variables in the loop. -/
abbrev mainEnv (v : Val UInt8 Y) : Env UInt8 Y := [("n", .inr 1), ("i", .inr 0), ("file", .inl v)]

/-- The cells: the stream and the number. -/
abbrev mainCells (num : Int → Y) (y : R → Y) (cap : Nat) (extra : Nat → Nat)
    (x : Source (ReadDataSource R) (FixedSizeBuffer UInt8) × Int) : List (Val UInt8 Y) :=
  [ofSource (fun s : ReadDataSource R => .con "ReadDataSource" [.other (y s.inner)]) (ofFixed cap extra 1) x.1, .other (num x.2)]

include hP hr in
theorem main_parse (cap : Nat) (extra : Nat → Nat) (v : Val UInt8 Y) (x : Source (ReadDataSource R) (FixedSizeBuffer UInt8) × Int)
    (hx : x.1.buffer.buffer.length ≤ usizeMax) :
    at_ (eval W (mainEnv v) (.method (.path "i") "parse" [.path "http::request"])) (mainCells num y cap extra x) = (do
      let r ← x.1.parse Build.checked (Http.request W.verbose)
      pure (.ok (ofExcept ofMessage (ofStreamError ofError) r.1), mainCells num y cap extra (r.2, x.2))) := by
  have h := Source_parse W (Ref.cell [] [.other (num x.2)]) (Reads.reader y hr) (isFixed W cap extra 1) ofMessage ofError
    (.fn "http::request") _ (http_request W hP) x.1 hx
  have hi := fun u => (Ref.cell [] [.other (num x.2)]).read (σ := σ) (X := UInt8) u
  have hf := eval_fn W (env := mainEnv v) (x := "http::request") rfl rfl
  have hp : place (mainEnv v) (.path "i") = some (0, []) := rfl
  rw [eval]
  simp [at_bind, evals, hf, eval, find]
  simp only [List.nil_append, List.length_nil] at hi h
  simp [at_bind, ofSource, receiver_source, callMethod_source, hp]
  exact h

include hP in
/-- A literal of the type `i32`. -/
theorem eval_i32 {env : Env UInt8 Y} (h : find env "i32" = none) (n : Nat) :
    eval W env (.call (.path "i32") [.byte n]) = pure (.other (num ((Http.counter Build.checked).num.fromU8 (UInt8.ofNat n)))) := by
  rw [eval, eval_fn W h rfl, evals, evals, eval, pure_bind, pure_bind, pure_bind, pure_bind,
    Runs.apply_std (Text.find_no_i _) (by decide), hP.bytes.byte]
  simp [stdCall, hP.numbers.fromU8]

include hP in
theorem eval_incr (v : Val UInt8 Y) (c : Val UInt8 Y) (n : Int) :
    at_ (eval W (mainEnv v) (.assign (.path "n") (.bin .add (.path "n") (.call (.path "i32") [.byte 1])))) [c, .other (num n)] = (do
      let n ← M.lift ((Http.counter Build.checked).num.add n 1)
      pure (.ok .unit, [c, .other (num n)])) := by
  have h1 : eval W (mainEnv v) (.call (.path "i32") [.byte 1]) = pure (.other (num 1)) := eval_i32 W hP rfl 1
  have hp : place (mainEnv v) (.path "n") = some (1, []) := rfl
  have hb : binop W .add (.other (num n)) (.other (num 1))
      = (do let c ← M.lift ((Http.counter Build.checked).num.add n 1); pure (.other (num c))) := by
    simp [binop, hP.numbers.add, lift_bind]
  rw [eval, eval, h1, eval]
  simp [at_bind, find, hp, hb]

omit [DataSource R UInt8] in
include hP in
theorem main_arms (cap : Nat) (extra : Nat → Nat) (v : Val UInt8 Y) (s : Source (ReadDataSource R) (FixedSizeBuffer UInt8)) (n : Int)
    (r : Except (StreamError UInt8 (Error UInt8)) (Http.Request × List Http.Header)) :
    at_ (evalArms W (mainEnv v) (ofExcept ofMessage (ofStreamError ofError) r) mainArms) (mainCells num y cap extra (s, n))
      = (match r with
        | .ok _ => do
          let n ← M.lift ((Http.counter Build.checked).num.add n 1)
          pure (.ok .unit, mainCells num y cap extra (s, n))
        | .error .retry => pure (.ok .unit, mainCells num y cap extra (s, n))
        | .error .endOfInput => pure (.error .brk, mainCells num y cap extra (s, n))
        | .error _ => M.panic) := by
  cases r with
  | ok m =>
    have h := eval_incr W hP v
    simp [mainArms, ofExcept, evalArms, matchPat, matchPats, at_bind, scope, eval_true, h]
  | error e =>
    cases e <;> simp [mainArms, ofExcept, ofStreamError, evalArms, matchPat, matchPats, at_bind, eval, evals, scope, panic_bind]

include hP hr in
theorem main_turn (cap : Nat) (extra : Nat → Nat) (v : Val UInt8 Y)
    (k : Except (Stop UInt8 Y) (Val UInt8 Y) × List (Val UInt8 Y) → M σ α) (fin : Int → M σ α)
    (hk : ∀ s n, k (.ok .unit, mainCells num y cap extra (s, n)) = fin n)
    (x : Source (ReadDataSource R) (FixedSizeBuffer UInt8) × Int) (hx : x.1.buffer.buffer.length ≤ usizeMax) :
    Both (TurnM (fun x => x.1.buffer.buffer.length ≤ usizeMax) (mainCells num y cap extra) k fin)
      (at_ (eval W (mainEnv v) mainTurn) (mainCells num y cap extra x)) (Http.mainStep Build.checked W.verbose x) := by
  obtain ⟨s, n⟩ := x
  have h : at_ (eval W (mainEnv v) mainTurn) (mainCells num y cap extra (s, n)) = (do
      let r ← s.parse Build.checked (Http.request W.verbose)
      at_ (evalArms W (mainEnv v) (ofExcept ofMessage (ofStreamError ofError) r.1) mainArms) (mainCells num y cap extra (r.2, n))) := by
    rw [mainTurn, eval, at_bind, main_parse W hP y hr cap extra v (s, n) hx]
    simp
  rw [h, Http.mainStep]
  refine Both.bind_ok _ fun r hr => ?_
  obtain ⟨w, w', hr⟩ := hr
  have hl := parse_length _ _ _ _ _ hr
  obtain ⟨r, t⟩ := r
  rw [main_arms W hP]
  dsimp only at hl hx ⊢
  match r with
  | .ok m => exact Both.lift _ fun n _ => Both.pure ⟨Nat.le_trans (Nat.le_of_eq hl) hx, _, rfl⟩
  | .error .retry => exact Both.pure ⟨Nat.le_trans (Nat.le_of_eq hl) hx, _, rfl⟩
  | .error .endOfInput => exact Both.pure ⟨_, _, rfl, hk _ _⟩
  | .error (.incomplete n) => exact Both.panic
  | .error (.ioError n) => exact Both.panic
  | .error (.parseError n m) => exact Both.panic

/-! ### The rest of `main` -/

omit [Build] in
theorem std_println (vs : List (Val UInt8 Y)) : stdCall W "println!" vs = (do
    let cs ← must (allShown W vs)
    toR (W.print (.con "str" (cs ++ [.nat 10])))
    pure .unit) := by
  unfold stdCall
  simp

theorem eval_println (v c : Val UInt8 Y) (s : String) (x : Y) :
    at_ (eval W (mainEnv v) (.call (.path "println!") [.str s, .con "Display" [.path "n"]])) [c, .other x] = (do
      W.print (ofText (s.toList ++ W.display x ++ ['\n']))
      pure (.ok .unit, [c, .other x])) := by
  have hs : allShown W [ofText s.toList, .con "Display" [.other x]]
    = some (s.toList.map (fun c => .nat c.toNat) ++ ((W.display x).map (fun c => .nat c.toNat) ++ [])) := rfl
  rw [eval, eval_fn W rfl rfl, evals, evals, evals, eval_str, eval, evals, evals, eval]
  simp only [pure_bind]
  simp only [find]
  simp [at_bind, Runs.apply_std (Text.find_no_println _) (by decide : "println!" ≠ "FromIterator::from_iter"), std_println, hs]
  simp [ofText]

/-- `File::open(env::args().nth(1).expect(s)).ok().expect(t)` -/
abbrev openExpr (s t : String) : Expr :=
  .method (.method (.call (.path "File::open") [.method (.method (.call (.path "env::args") []) "nth" [.num 1]) "expect" [.str s]])
    "ok" []) "expect" [.str t]

/-- The file which is opened. -/
def opened : M σ (Val UInt8 Y) :=
  match W.args[1]? with
  | none => M.panic
  | some a =>
    match W.openFile a with
    | .error _ => M.panic
    | .ok x => pure (.other x)

section
variable (v : Val UInt8 Y) (vs : List (Val UInt8 Y))

theorem callStd_args (h : m = "nth" ∨ m = "ok" ∨ m = "expect") : callStd W v m vs = toR (stdArgs v m vs) := by
  rw [callStd.eq_def]
  rcases h with rfl | rfl | rfl <;>
    rw [if_neg (by decide), if_neg (by decide), if_neg (by decide), if_neg (by decide), if_neg (by decide), if_pos (by decide)]

omit [Build]

theorem args_nth (n : Nat) : (stdArgs (.con "Args" vs) "nth" [.nat n] : M σ (Val UInt8 Y)) = pure (optV vs[n]?) := by
  unfold stdArgs; simp

theorem ok_ok : (stdArgs (.con "Ok" [v]) "ok" [] : M σ (Val UInt8 Y)) = pure (.con "Some" [v]) := rfl
theorem ok_err : (stdArgs (.con "Err" [v]) "ok" [] : M σ (Val UInt8 Y)) = pure (.con "None" []) := rfl
theorem expect_some (c : String) : (stdArgs (.con "Some" [v]) "expect" [.con c vs] : M σ (Val UInt8 Y)) = pure v := rfl
theorem expect_none (c : String) : (stdArgs (.con "None" []) "expect" [.con c vs] : M σ (Val UInt8 Y)) = M.panic := rfl

end

/-- A call of one of these methods. -/
theorem eval_args {env : Env UInt8 Y} {e : Expr} {es : List Expr} {c : String} {ws : List (Val UInt8 Y)} {vs : List (Val UInt8 Y)}
    {m : String} (he : eval W env e = pure (.con c ws)) (hes : evals W env es = pure vs)
    (h : m = "nth" ∨ m = "ok" ∨ m = "expect") (hf : Text.find W.verbose c m = none) :
    eval W env (.method e m es) = toR (stdArgs (.con c ws) m vs) := by
  rw [eval, he, pure_bind, hes]
  have hd : (deref (.con c ws) : RM σ UInt8 Y _) = pure (.con c ws) := rfl
  rw [hd, pure_bind, pure_bind, callMethod_eq, ← callStd_args W _ _ h]
  have : Text.find W.verbose (typeOf (.con c ws : Val UInt8 Y)) m = none := hf
  rw [this, callFound_none, if_neg]
  rcases h with rfl | rfl | rfl <;> simp [stdByMut]

theorem eval_open (s t : String) : eval W [] (openExpr s t) = toR (opened W) := by
  have hs := fun s => show evals W [] [.str s] = pure [ofText s.toList] by rw [evals, evals, eval_str]; rfl
  have h1 : eval W [] (.call (.path "env::args") []) = pure (.con "Args" W.args) := by
    rw [eval, eval_fn W rfl rfl, evals, pure_bind, pure_bind, Runs.apply_std (Text.find_no_envargs _) (by decide)]
    simp [stdCall]
  have h2 : eval W [] (.method (.call (.path "env::args") []) "nth" [.num 1]) = pure (optV W.args[1]?) := by
    rw [eval_args W h1 (vs := [.nat 1]) (by simp [evals, eval]) (.inl rfl) (Text.find_no_Args _ _), args_nth]
    rfl
  rw [opened]
  cases ha : W.args[1]? with
  | none =>
    rw [ha] at h2
    have h3 := eval_args W h2 (hs s) (.inr (.inr rfl)) (Text.find_no_None _ _)
    rw [ofText, expect_none] at h3
    have hp : ∀ {A B : Type} (f : A → RM σ UInt8 Y B), (toR M.panic >>= f) = toR M.panic := fun f => rfl
    have h4 : evals W [] [.method (.method (.call (.path "env::args") []) "nth" [.num 1]) "expect" [.str s]] = toR M.panic := by
      rw [evals, h3, hp]
    rw [eval, eval, eval, eval_fn W rfl rfl, pure_bind, h4, hp, hp, hp]
  | some a =>
    rw [ha] at h2
    have h3 := eval_args W h2 (hs s) (.inr (.inr rfl)) (Text.find_no_Some _ _)
    rw [ofText, expect_some] at h3
    have h4 : eval W [] (.call (.path "File::open") [.method (.method (.call (.path "env::args") []) "nth" [.num 1]) "expect" [.str s]])
        = (match W.openFile a with
          | .ok y => pure (.con "Ok" [.other y])
          | .error e => pure (.con "Err" [.con "io::Error" [.nat e.code]])) := by
      rw [eval, eval_fn W rfl rfl, evals, evals, h3, pure_bind]
      simp [Runs.apply_std (Text.find_no_Fileopen _) (by decide : "File::open" ≠ "FromIterator::from_iter")]
      rfl
    cases h : W.openFile a with
    | ok x =>
      rw [h] at h4
      have h5 := eval_args W h4 (es := []) (vs := []) (by rw [evals]) (.inr (.inl rfl)) (Text.find_no_Ok _ _)
      rw [ok_ok] at h5
      have h6 := eval_args W h5 (hs t) (.inr (.inr rfl)) (Text.find_no_Some _ _)
      rw [ofText, expect_some] at h6
      dsimp only
      rw [h]
      exact h6
    | error x =>
      rw [h] at h4
      have h5 := eval_args W h4 (es := []) (vs := []) (by rw [evals]) (.inr (.inl rfl)) (Text.find_no_Err _ _)
      rw [ok_err] at h5
      have h6 := eval_args W h5 (hs t) (.inr (.inr rfl)) (Text.find_no_None _ _)
      rw [ofText, expect_none] at h6
      dsimp only
      rw [h]
      exact h6

omit [Build] in
theorem new_length {R : Type} (file : R) (s : Source (ReadDataSource R) (FixedSizeBuffer UInt8)) (h : Source.new file = .ok s) :
    s.buffer.buffer.length ≤ usizeMax := by
  obtain ⟨b, hb, -, -, hl⟩ := FixedSizeBuffer.withSize_inv (I := UInt8) (n := 6 * 1024) (by decide) (by decide)
  obtain ⟨c, hc, h⟩ := bind_ok h
  cases h
  cases hb.symm.trans hc
  show b.buffer.length ≤ usizeMax
  rw [hl]
  decide

theorem at_let {env : Env UInt8 Y} {st : List (Val UInt8 Y)} {e b : Expr} {v : String} {x : M σ A} {f : A → Val UInt8 Y}
    (h : at_ (eval W env e) st = x >>= fun a => pure (.ok (f a), st)) :
    at_ (eval W env (.letIn (.bind false v) e b)) st = x >>= fun a => at_ (eval W ((v, .inl (f a)) :: env) b) st := by
  rw [eval, at_bind, h, bind_assoc]
  refine congrArg (x >>= ·) (funext fun a => ?_)
  simp [matchPat, scope_none]

theorem at_let_mut {env : Env UInt8 Y} {st : List (Val UInt8 Y)} {e b : Expr} {v : String} {x : M σ A} {f : A → Val UInt8 Y}
    (h : at_ (eval W env e) st = x >>= fun a => pure (.ok (f a), st)) :
    at_ (eval W env (.letIn (.bind true v) e b)) st = x >>= fun a =>
      at_ (eval W ((v, .inr st.length) :: env) b) (st ++ [f a]) >>= fun r => pure (r.1, r.2.take st.length) := by
  rw [eval, at_bind, h, bind_assoc]
  refine congrArg (x >>= ·) (funext fun a => ?_)
  simp [matchPat, at_scope, at_bind]

include hP hr in
theorem main_tail (cap : Nat) (extra : Nat → Nat) (v : Val UInt8 Y) (msg : String)
    (i : Source (ReadDataSource R) (FixedSizeBuffer UInt8)) (hi : i.buffer.buffer.length ≤ usizeMax) :
    (at_ (eval W (mainEnv v) (.seq (.loop mainTurn)
        (.seq (.call (.path "println!") [.str msg, .con "Display" [.path "n"]]) (.tuple [])))) (mainCells num y cap extra (i, 0))
      >>= fun r => pure (r.1, ([] : List (Val UInt8 Y)))) = (do
      let n ← loop (Http.mainStep Build.checked W.verbose) (i, 0)
      W.print (ofText (msg.toList ++ W.display (num n) ++ ['\n']))
      pure (.ok .unit, [])) := by
  have hloop : eval W (mainEnv v) (.loop mainTurn) = iterate (eval W (mainEnv v) mainTurn) := by rw [eval]
  rw [eval, at_bind, bind_assoc, hloop]
  refine at_iterate_then (fun x : Source (ReadDataSource R) (FixedSizeBuffer UInt8) × Int => x.1.buffer.buffer.length ≤ usizeMax)
    (eval W (mainEnv v) mainTurn) (Http.mainStep Build.checked W.verbose)
    (mainCells num y cap extra) _ _
    (main_turn W hP y hr _ _ _ _ _ fun s n => ?_) (i, 0) hi
  have hpr := fun c => eval_println W v c msg (num n)
  rw [next_ok, eval, at_bind, hpr]
  simp [eval, evals]

include hP hr in
theorem http_main (a : Val UInt8 Y) (file : R) (ha : W.args[1]? = some a) (ho : W.openFile a = .ok (y file)) :
    at_ (callFn W Text.http_main []) [] = (do
      let n ← Http.main Build.checked W.verbose file
      W.print (ofText ("num: ".toList ++ W.display (num n) ++ ['\n']))
      pure (.ok .unit, [])) := by
  have hb : Text.http_main.body = .letIn (.bind false "file") (openExpr "File to read" "Failed to open file")
      (.letIn (.bind true "i") (.call (.path "Source::new") [.path "file"])
        (.letIn (.bind true "n") (.call (.path "i32") [.byte 0])
          (.seq (.loop mainTurn)
            (.seq (.call (.path "println!") [.str "num: ", .con "Display" [.path "n"]]) (.tuple []))))) := rfl
  have hp : Text.http_main.params = [] := rfl
  have hopen : opened W = pure (.other (y file)) := by simp [opened, ha, ho]
  have hnew := Source_new W y file
  have h0 : ∀ {env : Env UInt8 Y}, find env "i32" = none → eval W env (.call (.path "i32") [.byte 0]) = pure (.other (num 0)) :=
    fun h => eval_i32 W hP h 0
  rw [callFn, hb, hp, Http.main]
  generalize "num: " = msg
  simp only [matchPats]
  have hn : eval W [("file", .inl (.other (y file)))] (.call (.path "Source::new") [.path "file"]) = toR (do
      let r ← M.lift (Source.new file)
      pure (ofSource (fun s : ReadDataSource R => .con "ReadDataSource" [.other (y s.inner)])
        (ofFixed (min isizeMax (6 * 1024 + W.extra 0)) W.extra 1) r)) := by
    rw [eval_call W (Text.find_Source_new _) rfl rfl, evals, evals, eval_var W rfl, ← hnew]
    simp
  have hbody : at_ (eval W [] (.letIn (.bind false "file") (openExpr "File to read" "Failed to open file")
      (.letIn (.bind true "i") (.call (.path "Source::new") [.path "file"])
        (.letIn (.bind true "n") (.call (.path "i32") [.byte 0])
          (.seq (.loop mainTurn)
            (.seq (.call (.path "println!") [.str msg, .con "Display" [.path "n"]]) (.tuple []))))))) [] = (do
      let n ← (do let i ← M.lift (Source.new file); loop (Http.mainStep Build.checked W.verbose) (i, 0))
      W.print (ofText (msg.toList ++ W.display (num n) ++ ['\n']))
      pure (.ok .unit, [])) := by
    rw [at_let W (x := pure (.other (y file))) (f := id) (by rw [eval_open, hopen]; rfl), pure_bind]
    rw [at_let_mut W (x := M.lift (Source.new file)) (f := ofSource (fun s : ReadDataSource R => .con "ReadDataSource" [.other (y s.inner)])
        (ofFixed (min isizeMax (6 * 1024 + W.extra 0)) W.extra 1)) (by rw [id, hn]; simp [at_bind]), bind_assoc]
    refine lift_congr' fun i hi => ?_
    rw [at_let_mut W (x := pure (0 : Int)) (f := fun n => .other (num n)) (by rw [h0 rfl]; rfl), pure_bind, bind_assoc]
    refine Eq.trans ?_ (main_tail W hP y hr (min isizeMax (6 * 1024 + W.extra 0)) W.extra (.other (y file)) msg i (new_length file i hi))
    refine congrArg (_ >>= ·) (funext fun r => ?_)
    rw [pure_bind]
    rfl
  simp [scope_none]
  rw [at_catchRet, hbody]
  simp

/-- Without an argument, or if the file cannot be opened. -/
theorem http_main_panic (h : opened W = M.panic) : at_ (callFn W Text.http_main []) [] = M.panic := by
  have hb : Text.http_main.body = .letIn (.bind false "file") (openExpr "File to read" "Failed to open file")
      (.letIn (.bind true "i") (.call (.path "Source::new") [.path "file"])
        (.letIn (.bind true "n") (.call (.path "i32") [.byte 0])
          (.seq (.loop mainTurn)
            (.seq (.call (.path "println!") [.str "num: ", .con "Display" [.path "n"]]) (.tuple []))))) := rfl
  have hp : Text.http_main.params = [] := rfl
  rw [callFn, hb, hp]
  simp only [matchPats]
  simp [scope_none]
  rw [at_catchRet, at_let W (x := M.panic) (f := id) (by rw [eval_open, h]; rfl)]
  rfl

theorem run_at {f : Fn} {vs : List (Val UInt8 Y)} {x : M σ α} {v : α → Val UInt8 Y}
    (h : at_ (callFn W f vs) [] = (do let a ← x; pure (.ok (v a), []))) : run W f vs = (do let a ← x; pure (v a)) := by
  show at_ (callFn W f vs) [] >>= _ = _
  rw [h, bind_assoc]
  rfl

end Chomp.Rust
