import Verif.Rust.Stateful

/-
The constructors of `Source`, src/buffer/stateful.rs:43-77.
-/

namespace Chomp.Rust

variable {σ X Y B : Type} [Build] (W : World σ X Y) {eb : B → Val X Y}

theorem eval_fn {env : Env X Y} {x : String} (h : find env x = none) (hc : constant (X := X) (Y := Y) x = none) :
    eval W env (.path x) = pure (.fn x) := by
  rw [eval, h]
  dsimp only
  rw [hc]

theorem eval_var {env : Env X Y} {x : String} {v : Val X Y} (h : find env x = some (.inl v)) :
    eval W env (.path x) = pure v := by
  rw [eval, h]

theorem apply_fn {x : String} {f : Fn} (h : Text.find W.verbose "" x = some f) (vs : List (Val X Y)) :
    apply W (.fn x) vs = callFn W f vs := by
  rw [apply.eq_def]
  simp only [h]

/-- A call of a function of the crate. -/
theorem eval_call {env : Env X Y} {x : String} {f : Fn} (h : Text.find W.verbose "" x = some f) (hx : find env x = none)
    (hc : constant (X := X) (Y := Y) x = none) (es : List Expr) :
    eval W env (.call (.path x) es) = evals W env es >>= callFn W f := by
  rw [eval, eval_fn W hx hc, pure_bind]
  exact congrArg _ (funext fun vs => apply_fn W h vs)

section
variable (v w : Val X Y)

theorem from_read_body :
    eval W [("buffer", .inl w), ("source", .inl v)] Text.Source_from_read.body = (do
      let u ← callFn W Text.ReadDataSource_new [v]
      callFn W Text.Source_with_buffer [u, w]) := by
  have hb : Text.Source_from_read.body
    = .call (.path "Source::with_buffer") [.call (.path "ReadDataSource::new") [.path "source"], .path "buffer"] := rfl
  rw [hb, eval_call W (Text.find_Source_with_buffer _) rfl rfl, evals, evals, evals,
    eval_call W (Text.find_ReadDataSource_new _) rfl rfl, evals, evals, eval_var W rfl, eval_var W rfl]
  simp only [bind_assoc, pure_bind]

theorem from_iter_body :
    eval W [("buffer", .inl w), ("source", .inl v)] Text.Source_from_iter.body = (do
      let u ← callFn W Text.IteratorDataSource_new [v]
      callFn W Text.Source_with_buffer [u, w]) := by
  have hb : Text.Source_from_iter.body
    = .call (.path "Source::with_buffer") [.call (.path "IteratorDataSource::new") [.path "source"], .path "buffer"] := rfl
  rw [hb, eval_call W (Text.find_Source_with_buffer _) rfl rfl, evals, evals, evals,
    eval_call W (Text.find_IteratorDataSource_new _) rfl rfl, evals, evals, eval_var W rfl, eval_var W rfl]
  simp only [bind_assoc, pure_bind]

theorem new_body :
    eval W [("source", .inl v)] Text.Source_new.body = (do
      let u ← callFn W Text.ReadDataSource_new [v]
      let w ← callFn W Text.FixedSizeBuffer_new []
      callFn W Text.Source_with_buffer [u, w]) := by
  have hb : Text.Source_new.body
    = .call (.path "Source::with_buffer") [.call (.path "ReadDataSource::new") [.path "source"],
      .call (.path "FixedSizeBuffer::new") []] := rfl
  rw [hb, eval_call W (Text.find_Source_with_buffer _) rfl rfl, evals, evals, evals,
    eval_call W (Text.find_ReadDataSource_new _) rfl rfl, eval_call W (Text.find_FixedSizeBuffer_new _) rfl rfl, evals, evals,
    eval_var W rfl]
  simp only [evals, bind_assoc, pure_bind]

end

theorem Source_from_read {R : Type} (y : R → Y) (s : R) (b : B) :
    callFn W Text.Source_from_read [.other (y s), eb b]
      = pure (ofSource (fun s : ReadDataSource R => .con "ReadDataSource" [.other (y s.inner)]) eb (.fromRead s b)) := by
  have h := Source_with_buffer (es := fun s : ReadDataSource R => .con "ReadDataSource" [.other (y s.inner)]) (eb := eb) W ⟨s⟩ b
  have hr := ReadDataSource_new W (.other (y s))
  have hp : Text.Source_from_read.params = [.bind false "source", .bind false "buffer"] := rfl
  have he := from_read_body W (.other (y s)) (eb b)
  rw [hr, pure_bind, h] at he
  rw [callFn, hp]
  simp [matchPats, matchPat, scope_none, he, Source.fromRead]

theorem Source_from_iter {J : Type} (y : J → Y) (s : J) (b : B) :
    callFn W Text.Source_from_iter [.other (y s), eb b]
      = pure (ofSource (fun s : IteratorDataSource J => .con "IteratorDataSource" [.other (y s.inner)]) eb (.fromIter s b)) := by
  have h := Source_with_buffer (es := fun s : IteratorDataSource J => .con "IteratorDataSource" [.other (y s.inner)]) (eb := eb) W
    ⟨s⟩ b
  have hr := IteratorDataSource_new W (.other (y s))
  have hp : Text.Source_from_iter.params = [.bind false "source", .bind false "buffer"] := rfl
  have he := from_iter_body W (.other (y s)) (eb b)
  rw [hr, pure_bind, h] at he
  rw [callFn, hp]
  simp [matchPats, matchPat, scope_none, he, Source.fromIter]

theorem Source_new {R : Type} (W : World σ UInt8 Y) (y : R → Y) (s : R) :
    callFn W Text.Source_new [.other (y s)] = toR (do
      let r ← M.lift (Source.new s)
      pure (ofSource (fun s : ReadDataSource R => .con "ReadDataSource" [.other (y s.inner)])
        (ofFixed (min isizeMax (6 * 1024 + W.extra 0)) W.extra 1) r)) := by
  have hf := Fixed_new W
  revert hf
  generalize hn : FixedSizeBuffer.new = r
  generalize min isizeMax (6 * 1024 + W.extra 0) = c
  intro hf
  have h := fun b => Source_with_buffer (es := fun s : ReadDataSource R => .con "ReadDataSource" [.other (y s.inner)])
    (eb := ofFixed c W.extra 1) W ⟨s⟩ b
  have hr := ReadDataSource_new W (.other (y s))
  have hp : Text.Source_new.params = [.bind false "source"] := rfl
  have he := new_body W (.other (y s))
  rw [hr, pure_bind, hf] at he
  rw [callFn, hp, Source.new, hn]
  cases r <;> simp [matchPats, matchPat, scope_none, he, h] <;> rfl

end Chomp.Rust
