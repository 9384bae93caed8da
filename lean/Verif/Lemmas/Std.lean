import Verif.Lemmas.Retry
import Verif.Spec.Std
import Verif.Props.Source

/-
Reading lines and the rest of the data.
-/

namespace Chomp

open Spec

namespace Inherited

section
variable {I : Type} [DecidableEq I]

theorem upTo_append {delim : I} {xs : List I} (h : delim ∉ xs) (ys : List I) :
    upTo delim (xs ++ ys) = xs ++ upTo delim ys := by
  induction xs with
  | nil => rfl
  | cons x xs ih =>
    rw [List.mem_cons, not_or] at h
    rw [List.cons_append, upTo, if_neg (fun he => h.1 he.symm), ih h.2]
    rfl

theorem find_some {delim : I} {xs : List I} {i : Nat} (h : xs.findIdx? (· == delim) = some i) :
    i + 1 ≤ xs.length ∧ ∀ ys, upTo delim (xs ++ ys) = xs.take (i + 1) := by
  induction xs generalizing i with
  | nil => cases h
  | cons x xs ih =>
    rw [List.findIdx?_cons] at h
    by_cases hx : x = delim
    · rw [if_pos (by simpa using hx)] at h
      cases h
      exact ⟨by simp, fun ys => by rw [List.cons_append, upTo, if_pos hx]; rfl⟩
    · rw [if_neg (by simpa using hx)] at h
      cases hf : xs.findIdx? (· == delim) with
      | none => rw [hf] at h; cases h
      | some j =>
        rw [hf] at h
        cases h
        obtain ⟨h1, h2⟩ := ih hf
        refine ⟨by simp; omega, fun ys => ?_⟩
        rw [List.cons_append, upTo, if_neg hx, h2]
        rfl

theorem find_none {delim : I} {xs : List I} (h : xs.findIdx? (· == delim) = none) : delim ∉ xs := by
  rw [List.findIdx?_eq_none_iff] at h
  intro hm
  have := h delim hm
  simp at this

end

variable {S B I : Type} [DataSource S I] [HonestSource S I] [Buffer B I] [LawfulBuffer B I]

/-- What the methods of the traits do to a source. -/
structure Move (rem : S → List I) (errs : S → Nat) (s : Source S B) (ys : List I) (s' : Source S B) :
    Prop where
  usable : Usable s'
  items : ahead rem s = ys ++ ahead rem s'
  state : s'.state = s.state
  request : s'.request = s.request
  drained : rem s.source = [] → rem s'.source = []
  errs : errs s'.source ≤ errs s.source
  cap : s.capacity ≤ s'.capacity
  hold : ∀ t, LawfulBuffer.CanHold s.buffer t → LawfulBuffer.CanHold s'.buffer t

variable {rem : S → List I} {errs : S → Nat}

omit [DataSource S I] [HonestSource S I] in
theorem Move.taken {s s' : Source S B} {ys : List I} (h : Move rem errs s ys s') : Taken rem s ys s' :=
  ⟨h.usable, h.items, fun hr => ⟨⟨h.usable, by rw [h.state]; exact hr.automatic,
    fun he => h.drained (hr.endOfInput (by rw [← h.state]; exact he)),
    fun hi => by rw [h.request]; exact h.hold _ (hr.request (by rw [← h.state]; exact hi))⟩, h.hold⟩⟩

omit [DataSource S I] [HonestSource S I] in
theorem Move.refl {s : Source S B} (h : Usable s) : Move rem errs s [] s :=
  ⟨h, rfl, rfl, rfl, id, Nat.le_refl _, Nat.le_refl _, fun _ h => h⟩

omit [DataSource S I] [HonestSource S I] in
theorem Move.trans {s s1 s2 : Source S B} {xs ys : List I} (h1 : Move rem errs s xs s1)
    (h2 : Move rem errs s1 ys s2) : Move rem errs s (xs ++ ys) s2 :=
  ⟨h2.usable, by rw [h1.items, h2.items, List.append_assoc], h2.state.trans h1.state,
    h2.request.trans h1.request, fun h => h2.drained (h1.drained h), Nat.le_trans h2.errs h1.errs,
    Nat.le_trans h1.cap h2.cap, fun t h => h2.hold t (h1.hold t h)⟩

omit [HonestSource S I] in
theorem Move.of_filled (hd : Delivers S rem errs) {chk : Bool} {k : Nat} {s s' : Source S B}
    {r : Except IoError Nat} {xs : List I} (h : Source.Filled chk k s r s' xs) : Move rem errs s [] s' := by
  have e := h.reads.rem hd
  refine ⟨h.usable, ?_, h.state, h.request_eq, fun h0 => ?_, e.2, h.cap, h.hold⟩
  · unfold ahead
    rw [h.held, e.1, List.append_assoc, List.nil_append]
  · rw [e.1] at h0
    exact (List.append_eq_nil_iff.mp h0).2

omit [DataSource S I] [HonestSource S I] in
theorem Move.consume (chk : Bool) {s : Source S B} (h : Usable s) {k : Nat} (hk : k ≤ (held s).length) :
    ∃ s', s.consume chk k = .ok s' ∧ Move rem errs s ((held s).take k) s' := by
  have hb : LawfulBuffer.Inv s.buffer := h
  obtain ⟨b, h1, h2, h3, _, h4, h5⟩ := LawfulBuffer.consume chk hb hk
  refine ⟨{ s with buffer := b }, by unfold Source.consume; rw [h1]; rfl, h2, ?_, rfl, rfl, id,
    Nat.le_refl _, Nat.le_of_eq h4.symm, h5⟩
  unfold ahead
  rw [show held { s with buffer := b } = (held s).drop k from h3, ← List.append_assoc,
    List.take_append_drop]

/-- `fill_buf` delivers something whenever there is something, in the states in `P`. -/
def Filler (rem : S → List I) (chk : Bool) (P : Source S B → Prop) : Prop :=
  ∀ s, P s → Usable s ∧
    ((held s).length < s.capacity →
      Buffer.requestSpace chk (s.capacity - (held s).length) s.buffer ≠ .panic) ∧
    ∀ s', s.fillBuf chk = .ok (.ok [], s') → ahead rem s = []

theorem filler_fixed (hd : Delivers S rem errs) (chk : Bool) :
    Filler rem chk (fun s : Source S (FixedSizeBuffer I) => Usable s ∧ 0 < s.capacity) := by
  rintro s ⟨h, hc⟩
  refine ⟨h, fun _ h2 => ?_, fun s' hr => Props.C57_fixed hd chk s s' h hc hr⟩
  rw [show Buffer.requestSpace chk (s.capacity - (held s).length) s.buffer =
      FixedSizeBuffer.requestSpace chk (s.capacity - (held s).length) s.buffer from rfl,
      FixedSizeBuffer.requestSpace_eq h] at h2
  cases h2

theorem filler_growing (hd : Delivers S rem errs) (chk : Bool) :
    Filler rem chk (fun s : Source S (GrowingBuffer I) => Usable s ∧ 0 < s.capacity ∧
      LawfulBuffer.CanHold s.buffer 0) := by
  rintro s ⟨h, hc, hl, _⟩
  refine ⟨h, fun _ h2 => ?_, fun s' hr => Props.C57_growing_used hd chk s s' h hc (.inl hl) hr⟩
  obtain ⟨b', e, _⟩ := Props.growing_request h (.inl hl) chk
  rw [show Buffer.requestSpace chk (s.capacity - (held s).length) s.buffer = .ok b' from e] at h2
  cases h2

/-- `fill_buf`. -/
theorem fillBuf_move (hd : Delivers S rem errs) (chk : Bool) {P : Source S B → Prop} (hP : Filler rem chk P)
    {s : Source S B} (hs : P s) : ∃ r s', s.fillBuf chk = .ok (r, s') ∧ Move rem errs s [] s' ∧
      (∀ e, r = .error e → errs s'.source < errs s.source) ∧
      ∀ ys, r = .ok ys → ys = held s' ∧ (ys = [] → ahead rem s = []) := by
  obtain ⟨h, hp, he⟩ := hP s hs
  rcases Source.fillBuf_spec chk s h with ⟨_, h1, h2⟩ | ⟨e, s1, xs, h1, h2⟩ | ⟨n, s1, xs, h1, h2⟩
  · exact absurd h2 (hp h1)
  · exact ⟨_, s1, h1, .of_filled hd h2, fun e' _ => (h2.err e rfl).2.errs hd, (fun ys hy => by cases hy)⟩
  · refine ⟨_, s1, h1, .of_filled hd h2, (fun e' he => by cases he), fun ys hy => ?_⟩
    cases hy
    exact ⟨rfl, fun h0 => he s1 (h0 ▸ h1)⟩

/-- `read`, if it does not panic. -/
theorem read_move (hd : Delivers S rem errs) (chk : Bool) (k : Nat) {s : Source S B} (h : Usable s)
    (hp : (held s).length < k → Buffer.requestSpace chk (k - (held s).length) s.buffer ≠ .panic) :
    ∃ r s' ys, s.read chk k = .ok (r, s') ∧ Move rem errs s ys s' ∧
      (∀ e, r = .error e → errs s'.source < errs s.source ∧ ys = []) ∧
      ∀ zs, r = .ok zs → zs = ys ∧ ys.length ≤ k := by
  rcases Source.read_spec chk k s h with ⟨_, h1, h2⟩ | ⟨e, s1, xs, h1, h2⟩ |
    ⟨n, s1, xs, b, h1, h2, h3, h4, _, h5, h6⟩
  · exact absurd h2 (hp h1)
  · exact ⟨_, s1, [], h1, .of_filled hd h2, fun e' _ => ⟨(h2.err e rfl).2.errs hd, rfl⟩,
      (fun ys hy => by cases hy)⟩
  · have hm := Move.of_filled hd h2
    refine ⟨_, _, _, h1, ⟨h3, ?_, hm.state, hm.request, hm.drained, hm.errs,
      Nat.le_trans hm.cap (Nat.le_of_eq h5.symm), fun t ht => h6 t (hm.hold t ht)⟩,
      (fun e' he => by cases he), (fun ys hy => by cases hy; exact ⟨rfl, by simp; omega⟩)⟩
    have := hm.items
    rw [this, List.nil_append]
    unfold ahead
    rw [show held { s1 with buffer := b } = (held s1).drop k from h4, ← List.append_assoc,
      List.take_append_drop]

theorem readUntil_spec [DecidableEq I] (hd : Delivers S rem errs) (chk : Bool)
    (interrupted : IoError → Bool) (delim : I) {P : Source S B → Prop} (hP : Filler rem chk P)
    (hmove : ∀ s ys s', P s → Move rem errs s ys s' → P s') (buf : List I) (n : Nat)
    {s : Source S B} (h : P s) :
    ∃ r ys s', loop (readUntilStep chk interrupted delim) (buf, n, s) () = .ok ((r, buf ++ ys, s'), ()) ∧
      Move rem errs s ys s' ∧
      (∀ l, r = .ok l → l = n + ys.length ∧ ys = upTo delim (ahead rem s)) ∧
      ∀ e, r = .error e → interrupted e = false ∧ delim ∉ ys ∧ errs s'.source < errs s.source := by
  generalize hm : errs s.source + (ahead rem s).length = m
  induction m using Nat.strongRecOn generalizing buf n s with
  | _ m ih =>
    obtain ⟨r, s1, h1, h2, h3, h4⟩ := fillBuf_move hd chk hP h
    rw [loop_apply]
    unfold readUntilStep
    dsimp only
    rw [h1, M.bind_ok (M.lift_ok _ _)]
    have hs1 : ahead rem s = ahead rem s1 := h2.items
    cases r with
    | error e =>
      dsimp only
      have h3 := h3 e rfl
      by_cases hi : interrupted e = true
      · rw [if_pos hi]
        obtain ⟨r, ys, s', g1, g2, g3, g4⟩ := ih (errs s1.source + (ahead rem s1).length)
          (by rw [← hs1]; omega) buf n (hmove _ _ _ h h2) rfl
        exact ⟨r, ys, s', g1, h2.trans g2, fun l hl => by rw [hs1]; exact g3 l hl,
          fun e' he => ⟨(g4 e' he).1, (g4 e' he).2.1, by have := (g4 e' he).2.2; omega⟩⟩
      · rw [if_neg hi]
        refine ⟨.error e, [], s1, by rw [List.append_nil]; rfl, h2, nofun, fun e' he => ?_⟩
        cases he
        exact ⟨by simpa using hi, List.not_mem_nil, h3⟩
    | ok ys =>
      obtain ⟨rfl, h5⟩ := h4 ys rfl
      dsimp only
      cases hf : (held s1).findIdx? (· == delim) with
      | some i =>
        obtain ⟨k1, k2⟩ := find_some hf
        obtain ⟨s2, g1, g2⟩ := Move.consume (rem := rem) (errs := errs) chk h2.usable k1
        dsimp only
        rw [g1, M.bind_ok (M.lift_ok _ _)]
        refine ⟨_, _, s2, rfl, h2.trans g2, fun l hl => ?_, (fun _ h => by cases h)⟩
        cases hl
        refine ⟨by rw [List.length_take, Nat.min_eq_left k1], ?_⟩
        rw [hs1]
        exact (k2 _).symm
      | none =>
        have hno := find_none hf
        obtain ⟨s2, g1, g2⟩ := Move.consume (rem := rem) (errs := errs) chk h2.usable (Nat.le_refl _)
        dsimp only
        rw [g1, M.bind_ok (M.lift_ok _ _)]
        rw [List.take_length] at g2
        by_cases h0 : held s1 = []
        · rw [if_pos (by rw [h0]; rfl)]
          have hz := h5 h0
          rw [h0] at g2
          refine ⟨_, [], s2, by rw [List.append_nil]; rfl, h2.trans g2, fun l hl => ?_, (fun _ h => by cases h)⟩
          cases hl
          exact ⟨rfl, by rw [hz]; rfl⟩
        · rw [if_neg (by simpa using h0)]
          have hlen := List.length_pos_iff.mpr h0
          have hl2 := congrArg List.length g2.items
          rw [List.length_append] at hl2
          have he2 := g2.errs
          have he1 := h2.errs
          have hl1 := congrArg List.length hs1
          obtain ⟨r, ys, s', f1, f2, f3, f4⟩ := ih (errs s2.source + (ahead rem s2).length) (by omega)
            (buf ++ held s1) (n + (held s1).length) (hmove _ _ _ h (h2.trans g2)) rfl
          refine ⟨r, held s1 ++ ys, s', by rw [← List.append_assoc]; exact f1,
            (h2.trans g2).trans f2, fun l hl => ?_, fun e he => ?_⟩
          · obtain ⟨a1, a2⟩ := f3 l hl
            refine ⟨by rw [a1, List.length_append]; omega, ?_⟩
            rw [hs1, g2.items, upTo_append hno, ← a2]
          · obtain ⟨a1, a2, a3⟩ := f4 e he
            exact ⟨a1, by rw [List.mem_append, not_or]; exact ⟨hno, a2⟩, by omega⟩

/-- `read` delivers something whenever there is something, for slices of the lengths in `K`, in the
states in `P`. -/
def Reader (rem : S → List I) (chk : Bool) (P : Source S B → Prop) (K : Nat → Prop) : Prop :=
  ∀ s k, P s → K k → 0 < k → Usable s ∧
    ((held s).length < k → Buffer.requestSpace chk (k - (held s).length) s.buffer ≠ .panic) ∧
    ∀ s', s.read chk k = .ok (.ok [], s') → ahead rem s = []

theorem readExact_spec (hd : Delivers S rem errs) (chk : Bool) (interrupted : IoError → Bool)
    (eof : IoError) {P : Source S B → Prop} {K : Nat → Prop} (hP : Reader rem chk P K)
    (hmove : ∀ s ys s', P s → Move rem errs s ys s' → P s') (hK : ∀ k k', k ≤ k' → K k' → K k)
    (buf : List I) (n : Nat) {s : Source S B} (h : P s) (hu : Usable s) (hn : K n) :
    ∃ r ys s', loop (readExactStep chk interrupted eof) (buf, n, s) () = .ok ((r, buf ++ ys, s'), ()) ∧
      Move rem errs s ys s' ∧ (r = .ok () → ys.length = n) ∧
      ∀ e, r = .error e → ys.length < n ∧
        (e = eof ∧ ahead rem s' = [] ∨ interrupted e = false ∧ errs s'.source < errs s.source) := by
  generalize hm : errs s.source + n = m
  induction m using Nat.strongRecOn generalizing buf n s with
  | _ m ih =>
    rw [loop_apply]
    unfold readExactStep
    dsimp only
    by_cases h0 : n = 0
    · subst h0
      rw [if_pos (by rfl)]
      exact ⟨_, [], s, by rw [List.append_nil]; rfl, .refl hu, fun _ => rfl, (fun _ h => by cases h)⟩
    · rw [if_neg (by simpa using h0)]
      obtain ⟨q1, q2, q3⟩ := hP s n h hn (by omega)
      obtain ⟨r, s1, ys, h1, h2, h3, h4⟩ := read_move hd chk n hu q2
      rw [h1, M.bind_ok (M.lift_ok _ _)]
      cases r with
      | error e =>
        dsimp only
        obtain ⟨h3, rfl⟩ := h3 e rfl
        by_cases hi : interrupted e = true
        · rw [if_pos hi]
          obtain ⟨r, ys, s', g1, g2, g3, g4⟩ := ih (errs s1.source + n) (by omega) buf n
            (hmove _ _ _ h h2) h2.usable hn rfl
          exact ⟨r, ys, s', g1, h2.trans g2, g3, fun e' he' => ⟨(g4 e' he').1, (g4 e' he').2.imp_right
            fun k => ⟨k.1, by omega⟩⟩⟩
        · rw [if_neg hi]
          refine ⟨.error e, [], s1, by rw [List.append_nil]; rfl, h2, nofun, fun e' he => ?_⟩
          cases he
          exact ⟨Nat.pos_of_ne_zero h0, .inr ⟨by simpa using hi, (h3 e rfl).1⟩⟩
      | ok zs =>
        obtain ⟨rfl, h5⟩ := h4 zs rfl
        match zs, h1, h2, h5 with
        | [], h1, h2, h5 =>
          have hz := q3 s1 h1
          refine ⟨.error eof, [], s1, by rw [List.append_nil]; rfl, h2, nofun, fun e' he => ?_⟩
          cases he
          have := h2.items
          rw [hz] at this
          exact ⟨Nat.pos_of_ne_zero h0, .inl ⟨rfl, this.symm⟩⟩
        | z :: zs, h1, h2, h5 =>
          have he := h2.errs
          rw [List.length_cons] at h5
          obtain ⟨r, ys, s', g1, g2, g3, g4⟩ := ih (errs s1.source + (n - (zs.length + 1)))
            (by omega) (buf ++ z :: zs) (n - (zs.length + 1)) (hmove _ _ _ h h2) h2.usable
            (hK _ _ (by omega) hn) rfl
          refine ⟨r, z :: zs ++ ys, s', by rw [← List.append_assoc]; exact g1, h2.trans g2,
            fun hr => ?_, fun e he => ?_⟩
          · have := g3 hr
            rw [List.length_append, List.length_cons]; omega
          · have := g4 e he
            exact ⟨by rw [List.length_append, List.length_cons]; omega, this.2.imp_right
              fun k => ⟨k.1, by omega⟩⟩

theorem readToEnd_spec (hd : Delivers S rem errs) (chk : Bool) (interrupted : IoError → Bool)
    (size : List I → Nat) {P : Source S B → Prop} {K : Nat → Prop} (hP : Reader rem chk P K)
    (hmove : ∀ s ys s', P s → Move rem errs s ys s' → P s') (hK : ∀ l, 0 < size l ∧ K (size l))
    (buf : List I) {s : Source S B} (h : P s) :
    ∃ r ys s', loop (readToEndStep chk interrupted size) (buf, s) () = .ok ((r, buf ++ ys, s'), ()) ∧
      Move rem errs s ys s' ∧ (∀ n, r = .ok n → n = (buf ++ ys).length ∧ ahead rem s' = []) ∧
      ∀ e, r = .error e → interrupted e = false ∧ errs s'.source < errs s.source := by
  generalize hm : errs s.source + (ahead rem s).length = m
  induction m using Nat.strongRecOn generalizing buf s with
  | _ m ih =>
    rw [loop_apply]
    unfold readToEndStep
    dsimp only
    obtain ⟨q1, q2, q3⟩ := hP s (size buf) h (hK buf).2 (hK buf).1
    obtain ⟨r, s1, ys, h1, h2, h3, h4⟩ := read_move hd chk (size buf) q1 q2
    rw [h1, M.bind_ok (M.lift_ok _ _)]
    have hlen := congrArg List.length h2.items
    rw [List.length_append] at hlen
    cases r with
    | error e =>
      dsimp only
      obtain ⟨h3, rfl⟩ := h3 e rfl
      by_cases hi : interrupted e = true
      · rw [if_pos hi]
        obtain ⟨r, ys, s', g1, g2, g3, g4⟩ := ih (errs s1.source + (ahead rem s1).length)
          (by have : ([] : List I).length = 0 := rfl; omega) buf (hmove _ _ _ h h2) rfl
        exact ⟨r, ys, s', g1, h2.trans g2, g3, fun e' he' => ⟨(g4 e' he').1, by
          have := (g4 e' he').2; omega⟩⟩
      · rw [if_neg hi]
        refine ⟨.error e, [], s1, by rw [List.append_nil]; rfl, h2, nofun, fun e' he => ?_⟩
        cases he
        exact ⟨by simpa using hi, (h3 e rfl).1⟩
    | ok zs =>
      obtain ⟨rfl, h5⟩ := h4 zs rfl
      match zs, h1, h2, hlen with
      | [], h1, h2, hlen =>
        have hz := q3 s1 h1
        refine ⟨_, [], s1, by rw [List.append_nil]; rfl, h2, fun n hn => ?_, (fun _ h => by cases h)⟩
        cases hn
        have := h2.items
        rw [hz] at this
        exact ⟨by rw [List.append_nil], this.symm⟩
      | z :: zs, h1, h2, hlen =>
        have he := h2.errs
        rw [List.length_cons] at hlen
        obtain ⟨r, ys, s', g1, g2, g3, g4⟩ := ih (errs s1.source + (ahead rem s1).length)
          (by omega) (buf ++ z :: zs) (hmove _ _ _ h h2) rfl
        exact ⟨r, z :: zs ++ ys, s', by rw [← List.append_assoc]; exact g1, h2.trans g2,
          fun n hn => by rw [← List.append_assoc]; exact g3 n hn,
          fun e' he' => ⟨(g4 e' he').1, Nat.lt_of_lt_of_le (g4 e' he').2 he⟩⟩

theorem reader_fixed (hd : Delivers S rem errs) (chk : Bool) :
    Reader rem chk (fun s : Source S (FixedSizeBuffer I) => Usable s ∧ 0 < s.capacity) fun _ => True := by
  rintro s k ⟨h, hc⟩ _ hk
  refine ⟨h, fun _ h2 => ?_, fun s' hr => Props.C56_fixed hd chk k s s' h hc hk hr⟩
  rw [show Buffer.requestSpace chk (k - (held s).length) s.buffer =
      FixedSizeBuffer.requestSpace chk (k - (held s).length) s.buffer from rfl,
      FixedSizeBuffer.requestSpace_eq h] at h2
  cases h2

theorem reader_hold (hd : Delivers S rem errs) (chk : Bool) (N : Nat) :
    Reader rem chk (fun s : Source S B => Usable s ∧ LawfulBuffer.CanHold s.buffer N) (· ≤ N) := by
  rintro s k ⟨h, hc⟩ hN hk
  have hc := LawfulBuffer.canHold_le hN hc
  refine ⟨h, fun hlt h2 => ?_, fun s' hr => Props.C56_end hd chk k s s' h hk hr hc⟩
  have hb : LawfulBuffer.Inv s.buffer := h
  have e : k = (LawfulBuffer.view s.buffer).length + (k - (held s).length) := by
    have : (held s).length = (LawfulBuffer.view s.buffer).length := rfl
    omega
  rw [e] at hc
  obtain ⟨b, h3, _⟩ := LawfulBuffer.request_fits chk hb hc
  rw [h3] at h2
  cases h2

theorem pieces_cases [DecidableEq I] (delim : I) (data : List I) (h : data ≠ []) :
    (∃ q rest, data = q ++ delim :: rest ∧ upTo delim data = q ++ [delim] ∧
      pieces delim data = q :: pieces delim rest) ∨
    (upTo delim data = data ∧ delim ∉ data ∧ pieces delim data = [data]) := by
  induction data with
  | nil => exact absurd rfl h
  | cons x xs ih =>
    by_cases hx : x = delim
    · subst hx
      exact .inl ⟨[], xs, rfl, by simp [upTo], by simp [pieces]⟩
    · by_cases hxs : xs = []
      · subst hxs
        exact .inr ⟨by simp [upTo], by simp; exact fun h => hx h.symm, by simp [pieces, hx]⟩
      · rcases ih hxs with ⟨q, rest, h1, h2, h3⟩ | ⟨h1, h2, h3⟩
        · exact .inl ⟨x :: q, rest, by rw [h1]; rfl, by rw [upTo, if_neg hx, h2]; rfl,
            by rw [pieces, if_neg hx, h3]⟩
        · exact .inr ⟨by rw [upTo, if_neg hx, h1], by
            rw [List.mem_cons, not_or]; exact ⟨fun h => hx h.symm, h2⟩,
            by rw [pieces, if_neg hx, h3]⟩

/-- What the loop does with a piece. -/
def splitCase {S B I : Type} [DecidableEq I] (delim : I) (ps : List (List I)) :
    Except IoError Nat × List I × Source S B →
    Res (((List (List I) × Source S B) ⊕ (Except IoError (List (List I)) × Source S B)) × Unit)
  | (.error e, _, s) => .ok (.inr (.error e, s), ())
  | (.ok 0, _, s) => .ok (.inr (.ok ps, s), ())
  | (.ok (_ + 1), buf, s) =>
    if buf.getLast? = some delim then .ok (.inl (ps ++ [buf.dropLast], s), ())
    else .ok (.inl (ps ++ [buf], s), ())

theorem split_spec [DecidableEq I] (hd : Delivers S rem errs) (chk : Bool)
    (interrupted : IoError → Bool) (delim : I) {P : Source S B → Prop} (hP : Filler rem chk P)
    (hmove : ∀ s ys s', P s → Move rem errs s ys s' → P s') (ps : List (List I))
    {s : Source S B} (h : P s) :
    ∃ r ys s', loop (splitStep chk interrupted delim) (ps, s) () = .ok ((r, s'), ()) ∧
      Move rem errs s ys s' ∧
      (∀ l, r = .ok l → l = ps ++ pieces delim (ahead rem s) ∧ ahead rem s' = []) ∧
      ∀ e, r = .error e → interrupted e = false ∧ errs s'.source < errs s.source := by
  generalize hm : (ahead rem s).length = m
  induction m using Nat.strongRecOn generalizing ps s with
  | _ m ih =>
    obtain ⟨r, ys, s1, h1, h2, h3, h4⟩ := readUntil_spec hd chk interrupted delim hP hmove [] 0 h
    rw [loop_apply]
    have h1 : readUntil chk interrupted delim [] s () = .ok ((r, ys, s1), ()) := h1
    have hstep : splitStep chk interrupted delim (ps, s) () = splitCase delim ps (r, ys, s1) := by
      unfold splitStep
      dsimp only
      rw [M.bind_ok h1]
      match r with
      | .error e => rfl
      | .ok 0 => rfl
      | .ok (n + 1) =>
        show (ite _ _ _ : M Unit _) () = (ite (ys.getLast? = some delim) _ _)
        by_cases hl : ys.getLast? = some delim
        · rw [if_pos hl, if_pos hl]; rfl
        · rw [if_neg hl, if_neg hl]; rfl
    rw [hstep]
    cases r with
    | error e =>
      refine ⟨.error e, ys, s1, rfl, h2, nofun, fun e' he => ?_⟩
      cases he
      exact ⟨(h4 e rfl).1, (h4 e rfl).2.2⟩
    | ok n =>
      obtain ⟨k1, k2⟩ := h3 n rfl
      rw [Nat.zero_add] at k1
      by_cases h0 : ahead rem s = []
      · have hy : ys = [] := by rw [k2, h0]; rfl
        subst hy
        subst k1
        refine ⟨.ok ps, [], s1, rfl, h2, fun l hl => ?_, (fun _ h => by cases h)⟩
        cases hl
        refine ⟨by rw [h0]; simp [pieces], ?_⟩
        have := h2.items
        rw [h0] at this
        exact this.symm
      · have hy : ys ≠ [] := by
          rw [k2]
          match hm : ahead rem s, h0 with
          | x :: xs, _ => unfold upTo; split <;> simp
        have hn : n ≠ 0 := by rw [k1]; exact fun h => hy (List.length_eq_zero_iff.mp h)
        match n, hn with
        | n + 1, _ =>
          unfold splitCase
          dsimp only
          have hlen := congrArg List.length h2.items
          rw [List.length_append] at hlen
          rcases pieces_cases delim (ahead rem s) h0 with ⟨q, rest, e1, e2, e3⟩ | ⟨e1, e2, e3⟩
          · have hyq : ys = q ++ [delim] := k2.trans e2
            have hrest : ahead rem s1 = rest := by
              have := h2.items
              rw [e1, hyq, List.append_assoc] at this
              have := List.append_cancel_left this
              simpa using this.symm
            rw [if_pos (by rw [hyq]; simp), hyq, List.dropLast_concat]
            obtain ⟨r, zs, s', g1, g2, g3, g4⟩ := ih (ahead rem s1).length (by omega) (ps ++ [q])
              (hmove _ _ _ h h2) rfl
            refine ⟨r, ys ++ zs, s', g1, h2.trans g2, fun l hl => ?_,
              fun e he => ⟨(g4 e he).1, Nat.lt_of_lt_of_le (g4 e he).2 h2.errs⟩⟩
            obtain ⟨f1, f2⟩ := g3 l hl
            exact ⟨by rw [f1, e3, hrest, List.append_assoc]; rfl, f2⟩
          · have hyq : ys = ahead rem s := k2.trans e1
            have hrest : ahead rem s1 = [] := by
              have := h2.items
              rw [hyq] at this
              have := congrArg List.length this
              rw [List.length_append] at this
              exact List.length_eq_zero_iff.mp (by omega)
            rw [if_neg (by
              rw [hyq]
              intro hl
              exact e2 (List.mem_of_getLast? hl))]
            obtain ⟨r, zs, s', g1, g2, g3, g4⟩ := ih (ahead rem s1).length (by omega) (ps ++ [ys])
              (hmove _ _ _ h h2) rfl
            refine ⟨r, ys ++ zs, s', g1, h2.trans g2, fun l hl => ?_,
              fun e he => ⟨(g4 e he).1, Nat.lt_of_lt_of_le (g4 e he).2 h2.errs⟩⟩
            obtain ⟨f1, f2⟩ := g3 l hl
            exact ⟨by rw [f1, e3, hrest, hyq]; simp [pieces], f2⟩

end Inherited

end Chomp
