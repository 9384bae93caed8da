import Verif.Spec.Records
import Verif.Props.Retry

namespace Chomp

open Spec Props

section
variable {S B I : Type} [DataSource S I] [HonestSource S I] [Buffer B I] [LawfulBuffer B I]

omit [HonestSource S I] [LawfulBuffer B I] in
/-- One turn. -/
theorem records_eq (chk : Bool) (p : Parser σ I T E) (f : A → T → Res A) (s : Source S B) (a : A)
    (w : σ) : records chk p f s a w = s.parse chk p w >>= fun x =>
      match x.1 with
      | (.ok t, s') => f a t >>= fun a' => records chk p f s' a' x.2
      | (.error .retry, s') => records chk p f s' a x.2
      | (.error .endOfInput, _) => .ok (.ok a, x.2)
      | (.error e, _) => .ok (.error e, x.2) := by
  show loop _ _ w = _
  rw [loop_apply, M.bind_apply]
  dsimp only
  match hr : s.parse chk p w with
  | .ok ((r, s'), w') =>
    simp only [Res.bind_ok]
    match r with
    | .ok t =>
      dsimp only
      rw [M.lift_bind]
      cases f a t <;> rfl
    | .error .retry => rfl
    | .error .endOfInput => rfl
    | .error (.incomplete n) => rfl
    | .error (.parseError b e) => rfl
    | .error (.ioError e) => rfl
  | .panic => rfl
  | .ub => rfl
  | .div => rfl

end

section
variable {S I : Type} [DataSource S I] [HonestSource S I]

/-- A source with a buffer of a fixed size, in the middle of reading records. -/
structure Running (rem : S → List I) (errs : S → Nat) (size : Nat) (p : Parser Unit I T E)
    (s : Source S (FixedSizeBuffer I)) : Prop where
  usable : Usable s
  automatic : s.state.automaticFill = true
  cap : s.buffer.buffer.length = size
  ended : s.state.endOfInput = true → rem s.source = []
  quiet : errs s.source = 0
  waiting : s.state.incomplete = true → s.request = 0 ∧ held s = [] ∨
    ∃ n, p ⟨.default, held s⟩ () = .ok (.incomplete n, ()) ∧ s.request = (held s).length + n

omit [HonestSource S I] in
/-- The size of the buffer does not change. -/
theorem Filled.cap {chk : Bool} {request : Nat} {s s' : Source S (FixedSizeBuffer I)}
    {r : Except IoError Nat} {xs : List I} (h : Usable s) (hf : Source.Filled chk request s r s' xs) :
    s'.buffer.buffer.length = s.buffer.buffer.length := by
  by_cases hl : (held s).length < request
  · obtain ⟨b1, h1, _, h3⟩ := hf.space hl
    obtain ⟨b2, g1, _, _, g4, _⟩ := FixedSizeBuffer.requestSpace_inv (show s.buffer.Inv from h) chk
      (request - (held s).length)
    have e : Buffer.requestSpace chk (request - (held s).length) s.buffer =
      FixedSizeBuffer.requestSpace chk (request - (held s).length) s.buffer := rfl
    rw [e, g1] at h1
    cases h1
    exact h3.trans g4
  · rw [(hf.none (by omega)).1]

omit [DataSource S I] [HonestSource S I] in
theorem held_le {s : Source S (FixedSizeBuffer I)} (h : Usable s) :
    (held s).length ≤ s.buffer.buffer.length := by
  have h : s.buffer.Inv := h
  have := h.len
  have := h.populated_le
  have e : (held s).length = (s.buffer.data.drop s.buffer.used).length := rfl
  omega

/-- What one call of `parse` does to it. -/
def Turn (rem : S → List I) (errs : S → Nat) (size : Nat) (p : Parser Unit I T E)
    (s s' : Source S (FixedSizeBuffer I)) :
    Except (StreamError I E) T → Prop
  | .ok t => Running rem errs size p s' ∧
      First p size (ahead rem s) t (ahead rem s')
  | .error .retry => Running rem errs size p s' ∧ ahead rem s' = ahead rem s
  | .error .endOfInput => ahead rem s = []
  | .error _ => True

/-- One call of `parse`. -/
theorem Running.parse {rem : S → List I} {errs : S → Nat} (hd : Delivers S rem errs) (chk : Bool)
    {size K : Nat}
    {p : Parser Unit I T E} (hp : RecordParser K p) (hK : max 1 K ≤ size)
    {s s' : Source S (FixedSizeBuffer I)} (h : Running rem errs size p s)
    (hl : (ahead rem s).length + max 1 K ≤ usizeMax) {r : Except (StreamError I E) T}
    (hr : s.parse chk p () = .ok ((r, s'), ())) :
    Turn rem errs size p s s' r := by
  have hs := hp.built.streamed rfl
  have hb : ∀ i n u, p i () = .ok (.incomplete n, u) → n ≤ max 1 K := fun i n u h =>
    C66_request rfl hp.built i () u n h
  -- after reading
  have run : ∀ s1 : Source S (FixedSizeBuffer I), Usable s1 → s1.state.automaticFill = true →
      s1.buffer.buffer.length = size → s1.state.incomplete = false → ahead rem s1 = ahead rem s →
      (s1.state.endOfInput = true → rem s1.source = [] ∨ ∃ x n, held s1 = held s ++ x ∧
        p ⟨.default, held s⟩ () = .ok (.incomplete n, ()) ∧ size < (held s).length + n) →
      (s1.state.endOfInput = true → held s1 = [] → rem s1.source = []) → errs s1.source = 0 →
      s1.attempt chk p () = .ok ((r, s'), ()) → Turn rem errs size p s s' r := by
    intro s1 h1 h2 h3 h4 h5 h6 h7 h8 hr
    obtain ⟨g1, g2, g3, g4, g5, g6, _, _, g9⟩ := Source.attempt_effect chk hp.built.anything s1 () () h1 hr
    have hcap : s'.buffer.buffer.length = size := g9.trans h3
    obtain ⟨_, _, k3⟩ := Source.attempt_source chk p s1 () () hr
    match r, hr, g3, g6 with
    | .ok t, hr, g3, g6 =>
      have g3 : p ⟨modeOf s', held s1⟩ () = .ok (.data ⟨modeOf s', held s'⟩ t, ()) := g3
      have hdef : p ⟨.default, held s1⟩ () = .ok (.data ⟨.default, held s'⟩ t, ()) := by
        cases hm : modeOf s' with
        | default => rw [hm] at g3; exact g3
        | endOfInput => rw [hm] at g3; exact hp.delimited _ _ _ g3
      have hend : s1.state.endOfInput = true → rem s1.source = [] := by
        intro he
        rcases h6 he with h6 | ⟨x, n, e1, e2, e3⟩
        · exact h6
        · exfalso
          have hle := held_le h1
          rw [e1, List.length_append] at hle
          obtain ⟨n', e4, _⟩ := C08_truthful hs (held s) x () () n e2 (by omega)
          rw [← e1, hdef] at e4
          cases e4
      have hst := C07_stable hs (held s1) (rem s1.source) .endOfInput () ()
      refine ⟨⟨g1, g5.trans h2, hcap, fun he => ?_, by rw [g2]; exact h8, fun he => ?_⟩, ?_, ?_⟩
      · rw [g2]; exact hend (k3 ▸ he)
      · rcases g6.mp he with g6 | g6
        · rw [h4] at g6; cases g6
        · cases g6
      · rw [← h5]
        have := ((hst).1 _ _ hdef).2
        unfold ahead
        rw [g2]
        exact this
      · intro x y n hx hn
        rw [← h5] at hx
        unfold ahead at hx
        have hle := held_le h1
        rcases List.append_eq_append_iff.mp hx with ⟨z, e1, e2⟩ | ⟨z, e1, e2⟩
        · -- what was read is part of `x`
          exfalso
          have := ((C07_stable hs (held s1) z .default () ()).1 _ _ hdef).2
          rw [← e1, hn] at this
          cases this
        · rw [e1, List.length_append] at hle
          apply Classical.byContradiction
          intro hc
          obtain ⟨n', e4, _⟩ := C08_truthful hs x z () () n hn (by omega)
          rw [← e1, hdef] at e4
          cases e4
    | .error .retry, hr, g3, g6 =>
      obtain ⟨k1, n, m, k2, k4, rfl⟩ := attempt_retry h1 hr
      have hlen : (ahead rem s).length = (held s1).length + (rem s1.source).length := by
        rw [← h5]; unfold ahead; rw [List.length_append]
      have := hb _ _ _ k2
      rw [uaddB_ok (by omega)] at k4
      cases k4
      exact ⟨⟨h1, h2, h3, fun he => (by rw [he] at k1; cases k1), h8,
        fun _ => .inr ⟨n, k2, rfl⟩⟩, h5⟩
    | .error .endOfInput, hr, g3, g6 =>
      obtain ⟨k1, k2, k4, _⟩ := g3
      have he : s1.state.endOfInput = true := by
        rw [← k3]
        unfold modeOf at k1
        split at k1
        · assumption
        · cases k1
      have := h7 he k2
      show ahead rem s = []
      rw [← h5]
      unfold ahead
      rw [k2, this]
      rfl
    | .error (.incomplete _), _, _, _ => trivial
    | .error (.parseError _ _), _, _, _ => trivial
    | .error (.ioError _), _, _, _ => trivial
  rw [Source.parse_eq] at hr
  split at hr
  · rename_i hc
    have hi : s.state.incomplete = true := by
      simp only [Bool.and_eq_true] at hc
      exact hc.1
    rcases Source.fill_spec chk s h.usable with ⟨h1, _⟩ | ⟨e, s1, xs, h1, h2⟩ | ⟨n, s1, xs, h1, h2⟩
    · rw [h1] at hr; cases hr
    · exact absurd ((h2.err e rfl).2.errs hd) (by rw [h.quiet]; exact Nat.not_lt_zero _)
    · have hreal : max 1 s.request ≤ size → s1.afterFill.endOfInput = true → rem s1.source = [] := by
        intro hc he
        exact C50_real_end hd chk s { s1 with state := s1.afterFill } h.usable n h1
          (show max 1 s.request ≤ s.buffer.buffer.length by rw [h.cap]; exact hc) he
      rw [h1, Res.bind_ok] at hr
      refine run { s1 with state := s1.afterFill } h2.usable
        (by show s1.state.automaticFill = true; rw [h2.state]; exact h.automatic)
        ((Filled.cap h.usable h2).trans h.cap) rfl ?_ ?_ ?_ ?_ hr
      · show held s1 ++ rem s1.source = _
        unfold ahead; rw [h2.held, (h2.reads.rem hd).1, List.append_assoc]
      · intro he
        by_cases hc : max 1 s.request ≤ size
        · exact .inl (hreal hc he)
        · right
          rcases h.waiting hi with ⟨k1, _⟩ | ⟨n, k1, k2⟩
          · omega
          · exact ⟨xs, n, h2.held, k1, by omega⟩
      · intro he h0
        refine hreal ?_ he
        have h0 : held s1 = [] := h0
        rw [h2.held] at h0
        have h0 := (List.append_eq_nil_iff.mp h0).1
        rcases h.waiting hi with ⟨k1, _⟩ | ⟨n, k1, k2⟩
        · omega
        · have := hb _ _ _ k1
          rw [h0] at k2
          simp at k2
          omega
      · have := (h2.reads.rem hd).2
        have := h.quiet
        show errs s1.source = 0
        omega
  · rename_i hc
    rw [Res.bind_ok] at hr
    refine run s h.usable h.automatic h.cap ?_ rfl (fun he => .inl (h.ended he)) (fun he _ => h.ended he)
      h.quiet hr
    simpa [h.automatic] using hc

/-- `parse` returns. -/
theorem Running.returns {rem : S → List I} {errs : S → Nat} (hd : Delivers S rem errs) (chk : Bool)
    {size K : Nat}
    {p : Parser Unit I T E} (hp : RecordParser K p) {s : Source S (FixedSizeBuffer I)}
    (h : Running rem errs size p s) (hl : (ahead rem s).length + max 1 K ≤ usizeMax) :
    ∃ r s', s.parse chk p () = .ok ((r, s'), ()) := by
  have att : ∀ s1 : Source S (FixedSizeBuffer I), Usable s1 → (held s1).length + max 1 K ≤ usizeMax →
      ∃ r s', s1.attempt chk p () = .ok ((r, s'), ()) := by
    intro s1 h1 h2
    by_cases hn : s1.state.endOfInput = true ∧ held s1 = []
    · exact ⟨_, _, Source.attempt_end chk p s1 () h1 hn.1 hn.2⟩
    · obtain ⟨r, hr⟩ := hp.returns ⟨modeOf s1, held s1⟩
      match r, hr with
      | .data i t, hr =>
        obtain ⟨b, g, _⟩ := Source.attempt_data chk hp.built.anything s1 () () h1 hn hr
        exact ⟨_, _, g⟩
      | .error y e, hr =>
        obtain ⟨b, g, _⟩ := Source.attempt_error chk hp.built.anything s1 () () h1 hn hr
        exact ⟨_, _, g⟩
      | .incomplete n, hr =>
        have := C66_request rfl hp.built _ () () n hr
        rw [Source.attempt_eq chk p s1 () h1 hn, hr, Res.bind_ok]
        dsimp only [Source.finish]
        rw [uaddB_ok (by omega), Res.bind_ok]
        split
        · exact ⟨_, _, rfl⟩
        · exact ⟨_, _, rfl⟩
  have hlen : (ahead rem s).length = (held s).length + (rem s.source).length := by
    unfold ahead; rw [List.length_append]
  rw [Source.parse_eq]
  split
  · rcases Source.fill_spec chk s h.usable with ⟨_, _, h1⟩ | ⟨e, s1, xs, h1, h2⟩ | ⟨n, s1, xs, h1, h2⟩
    · obtain ⟨b2, g1, _⟩ := FixedSizeBuffer.requestSpace_inv (show s.buffer.Inv from h.usable) chk
        (max 1 s.request - (held s).length)
      have e : Buffer.requestSpace chk (max 1 s.request - (held s).length) s.buffer =
        FixedSizeBuffer.requestSpace chk (max 1 s.request - (held s).length) s.buffer := rfl
      rw [e, g1] at h1
      cases h1
    · exact absurd ((h2.err e rfl).2.errs hd) (by rw [h.quiet]; exact Nat.not_lt_zero _)
    · rw [h1, Res.bind_ok]
      refine att { s1 with state := s1.afterFill } h2.usable ?_
      show (held s1).length + _ ≤ _
      have := (h2.reads.rem hd).1
      rw [h2.held, List.length_append]
      have := congrArg List.length this
      rw [List.length_append] at this
      omega
  · exact att s h.usable (by omega)

omit [DataSource S I] [HonestSource S I] in
theorem Spec.First.unique {p : Parser Unit I T E} {size : Nat} {b r r' : List I} {t t' : T}
    (h : First p size b t r) (h' : First p size b t' r') : t = t' ∧ r = r' := by
  have := h.parses.symm.trans h'.parses
  cases this
  exact ⟨rfl, rfl⟩

omit [DataSource S I] [HonestSource S I] in
/-- The records of a stream are determined. -/
theorem Spec.Records.unique {p : Parser Unit I T E} {size : Nat} {b r r' : List I} {xs ys : List T}
    (h : Records p size b xs r) (h' : Records p size b ys r') (hn : ∀ t r₁, ¬ First p size r t r₁)
    (hn' : ∀ t r₁, ¬ First p size r' t r₁) : xs = ys ∧ r = r' := by
  induction h generalizing ys with
  | nil =>
    cases h' with
    | nil => exact ⟨rfl, rfl⟩
    | cons g _ => exact absurd g (hn _ _)
  | cons g _ ih =>
    cases h' with
    | nil => exact absurd g (hn' _ _)
    | cons k k' =>
      obtain ⟨rfl, rfl⟩ := g.unique k
      obtain ⟨rfl, rfl⟩ := ih k' hn
      exact ⟨rfl, rfl⟩

/-- Other errors are reported only where there is something which is not a record. -/
theorem Running.error {rem : S → List I} {errs : S → Nat} (hd : Delivers S rem errs) (chk : Bool)
    {size K : Nat}
    {p : Parser Unit I T E} (hp : RecordParser K p) (hK : max 1 K ≤ size)
    {s s' : Source S (FixedSizeBuffer I)} (h : Running rem errs size p s)
    (hl : (ahead rem s).length + max 1 K ≤ usizeMax) {e : StreamError I E}
    (hr : s.parse chk p () = .ok ((.error e, s'), ())) (h1 : e ≠ .retry) (h2 : e ≠ .endOfInput) :
    ahead rem s ≠ [] ∧ ∀ t r, ¬ First p size (ahead rem s) t r := by
  have hio : ∀ e', e ≠ .ioError e' := by
    rintro e' rfl
    rw [Source.parse_eq] at hr
    split at hr
    · rcases Source.fill_spec chk s h.usable with ⟨h1, _⟩ | ⟨e, s1, xs, h1, h2⟩ | ⟨n, s1, xs, h1, h2⟩
      · rw [h1] at hr; cases hr
      · exact absurd ((h2.err e rfl).2.errs hd) (by rw [h.quiet]; exact Nat.not_lt_zero _)
      · rw [h1] at hr
        exact attempt_no_io (s := { s1 with state := s1.afterFill }) h2.usable hr
    · exact attempt_no_io h.usable hr
  have hre : retry chk p s () = .ok ((.error e, s'), ()) := by
    rw [retry_eq, hr, Res.bind_ok]
    match e, h1, hio with
    | .retry, h1, _ => exact absurd rfl h1
    | .ioError e', _, hio => exact absurd rfl (hio e')
    | .endOfInput, _, _ => rfl
    | .incomplete n, _, _ => rfl
    | .parseError b e, _, _ => rfl
  have hq : ∀ i n, p i () = .ok (.incomplete n, ()) → n ≤ max 1 K := fun i n h =>
    C66_request rfl hp.built i () () n h
  have hs := hp.built.streamed rfl
  have hfit : (∀ x y n, ahead rem s = x ++ y → p ⟨.default, x⟩ () = .ok (.incomplete n, ()) →
      x.length + n ≤ size) → Fits p s.buffer (ahead rem s) ∧ Ready rem s := by
    intro hf
    refine ⟨⟨fun x y n g1 g2 => ?_, fun n g => ?_⟩, h.usable, h.automatic, h.ended, fun hi => ?_⟩
    · show x.length + n ≤ s.buffer.buffer.length
      rw [h.cap]
      exact hf x y n g1 g2
    · have := hq _ _ g
      omega
    · show max 1 s.request ≤ s.buffer.buffer.length
      rcases h.waiting hi with ⟨g, _⟩ | ⟨n, g1, g2⟩
      · rw [g, h.cap]; omega
      · have := hf (held s) (rem s.source) n rfl g1
        rw [h.cap]
        omega
  have hne : ahead rem s ≠ [] := by
    intro h0
    obtain ⟨k1, k2⟩ := hfit (by
      intro x y n g1 g2
      rw [h0] at g1
      have := (List.append_eq_nil_iff.mp g1.symm).1
      subst this
      have := hq _ _ g2
      rw [List.length_nil]
      omega)
    rcases retry_empty hd chk hs s k2 h0 (h0 ▸ k1) with ⟨t, k, _⟩ | k
    · rw [hre] at k
      cases k
      exact h2 rfl
    · obtain ⟨n, g⟩ := hp.empty
      exact k n () g
  refine ⟨hne, fun t r hx => ?_⟩
  obtain ⟨k1, k2⟩ := hfit hx.fits
  have k := C51_retry hd chk hs s k2 hne k1
  rw [hx.parses] at k
  obtain ⟨t, k, _⟩ := k
  rw [hre] at k
  cases k

/-- What reading records does. -/
theorem records_cases {rem : S → List I} {errs : S → Nat} (hd : Delivers S rem errs) (chk : Bool)
    {size K : Nat}
    {p : Parser Unit I T E} (hp : RecordParser K p) (hK : max 1 K ≤ size) (f : A → T → Res A)
    (s : Source S (FixedSizeBuffer I)) (h : Running rem errs size p s)
    (hl : (ahead rem s).length + max 1 K ≤ usizeMax) (a : A) :
    ∃ xs rest, Records p size (ahead rem s) xs rest ∧ (∀ t r, ¬ First p size rest t r) ∧
      ((rest = [] ∧ records chk p f s a () = xs.foldlM f a >>= fun a' => .ok (.ok a', ())) ∨
       (rest ≠ [] ∧ ∃ e, e ≠ StreamError.endOfInput ∧ e ≠ .retry ∧
        records chk p f s a () = xs.foldlM f a >>= fun _ => .ok (.error e, ()))) := by
  generalize hm : (ahead rem s).length = m
  induction m using Nat.strongRecOn generalizing s a with
  | _ m ihm =>
  generalize hk : todo rem errs s = k
  induction k using Nat.strongRecOn generalizing s with
  | _ k ihk =>
  have hq : ∀ x y w n w', ahead rem s = x ++ y → p ⟨.default, x⟩ w = .ok (.incomplete n, w') →
      1 ≤ n ∧ x.length + n ≤ usizeMax := by
    intro x y w n w' h1 h2
    have := C66_request rfl hp.built _ _ _ n h2
    have := C08_positive (hp.built.streamed rfl) _ _ _ _ h2
    have := congrArg List.length h1
    rw [List.length_append] at this
    omega
  obtain ⟨r, s', hr⟩ := h.returns hd chk hp hl
  have ht := h.parse hd chk hp hK hl hr
  have he : ∀ e, r = .error e → e ≠ .retry → e ≠ .endOfInput →
      ahead rem s ≠ [] ∧ ∀ t r, ¬ First p size (ahead rem s) t r :=
    fun e h1 h2 h3 => h.error hd chk hp hK hl (h1 ▸ hr) h2 h3
  rw [records_eq, hr, Res.bind_ok]
  match r, ht with
  | .ok t, ht =>
    obtain ⟨h1, h2⟩ := ht
    have hlt := hp.consumes _ _ _ h2.parses
    dsimp only at hlt ⊢
    have ih := fun a' => ihm _ (hm ▸ hlt) s' h1 (by omega) a' rfl
    cases hf : f a t with
    | ok a' =>
      obtain ⟨xs, rest, g1, g2, g3⟩ := ih a'
      refine ⟨t :: xs, rest, .cons h2 g1, g2, ?_⟩
      rw [List.foldlM_cons, hf, Res.bind_ok, Res.bind_ok]
      exact g3
    | panic | ub | div =>
      obtain ⟨xs, rest, g1, g2, g3⟩ := ih a
      refine ⟨t :: xs, rest, .cons h2 g1, g2, ?_⟩
      rw [List.foldlM_cons, hf]
      rcases g3 with ⟨g3, _⟩ | ⟨g3, e, g4, g5, _⟩
      · exact .inl ⟨g3, rfl⟩
      · exact .inr ⟨g3, e, g4, g5, rfl⟩
  | .error .retry, ht =>
    obtain ⟨h1, h2⟩ := ht
    have := (parse_again hd chk s s' h.usable h.automatic hq hr (.inl rfl)).2.2.2
    have ih := ihk _ (hk ▸ this) s' h1 (by rw [h2]; exact hl) (by rw [h2]; exact hm) rfl
    rw [h2] at ih
    exact ih
  | .error .endOfInput, ht =>
    have ht : ahead rem s = [] := ht
    refine ⟨[], [], by rw [ht]; exact .nil, fun t r hx => ?_, .inl ⟨rfl, rfl⟩⟩
    exact absurd (hp.consumes _ _ _ hx.parses) (Nat.not_lt_zero _)
  | .error (.incomplete n), _ =>
    obtain ⟨g1, g2⟩ := he _ rfl nofun nofun
    exact ⟨[], _, .nil, g2, .inr ⟨g1, .incomplete n, nofun, nofun, rfl⟩⟩
  | .error (.parseError b e), _ =>
    obtain ⟨g1, g2⟩ := he _ rfl nofun nofun
    exact ⟨[], _, .nil, g2, .inr ⟨g1, .parseError b e, nofun, nofun, rfl⟩⟩
  | .error (.ioError e), _ =>
    obtain ⟨g1, g2⟩ := he _ rfl nofun nofun
    exact ⟨[], _, .nil, g2, .inr ⟨g1, .ioError e, nofun, nofun, rfl⟩⟩

end

end Chomp
