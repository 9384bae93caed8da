import Verif.Model.StdTake
import Verif.Lemmas.Std
import Verif.Lemmas.Limit

/-
`take` and `bytes`.
-/

namespace Chomp

open Spec

namespace Inherited

variable {S B I : Type} [DataSource S I] [HonestSource S I] [Buffer B I] [LawfulBuffer B I]
variable {rem : S → List I} {errs : S → Nat}

/-- In the states in `P`, `read` into a slice of a length in `K` does not panic, and finds nothing only if it leads to
a state in `Q`. -/
def ReadsTo (chk : Bool) (P : Source S B → Prop) (K : Nat → Prop) (Q : Source S B → Prop) : Prop :=
  ∀ s k, P s → K k → 0 < k → Usable s ∧
    ((held s).length < k → Buffer.requestSpace chk (k - (held s).length) s.buffer ≠ .panic) ∧
    ∀ s', s.read chk k = .ok (.ok [], s') → Q s'

theorem Reader.readsTo (hd : Delivers S rem errs) {chk : Bool} {P : Source S B → Prop} {K : Nat → Prop}
    (h : Reader rem chk P K) : ReadsTo chk P K (fun s => ahead rem s = []) := by
  intro s k hs hk hp
  obtain ⟨h1, h2, h3⟩ := h s k hs hk hp
  refine ⟨h1, h2, fun s' e => ?_⟩
  obtain ⟨r, s1, ys, g1, g2, _⟩ := read_move hd chk k h1 h2
  have hz := h3 s' e
  rw [g1] at e
  cases e
  have := g2.items
  rw [hz] at this
  exact (List.append_eq_nil_iff.mp this.symm).2

omit [HonestSource S I] in
theorem EndsIn.readsTo {chk : Bool} {N : Nat} {Q : Source S B → Prop} (h : EndsIn chk N Q) :
    ReadsTo chk Usable (· ≤ N) Q :=
  fun s k hs hk hp => ⟨hs, h s k hs hp hk⟩

theorem takeToEnd_spec (hd : Delivers S rem errs) (chk : Bool) (interrupted : IoError → Bool)
    (size : List I → Nat) {P : Source S B → Prop} {K : Nat → Prop} {Q : Source S B → Prop} (hP : ReadsTo chk P K Q)
    (hmove : ∀ s ys s', P s → Move rem errs s ys s' → P s') (hu : ∀ s, P s → Usable s)
    (hK : ∀ l n, 0 < n → K (min (size l) n)) (hz : ∀ l, 0 < size l)
    (buf : List I) (limit : Nat) {s : Source S B} (h : P s) :
    ∃ r ys s', loop (takeToEndStep chk interrupted size) (buf, limit, s) () =
        .ok ((r, buf ++ ys, limit - ys.length, s'), ()) ∧
      Move rem errs s ys s' ∧ ys.length ≤ limit ∧
      (∀ n, r = .ok n → n = (buf ++ ys).length ∧ (ys.length = limit ∨ Q s')) ∧
      (∀ e, r = .error e → interrupted e = false ∧ errs s'.source < errs s.source) ∧ (limit = 0 → s' = s) := by
  generalize hm : errs s.source + (ahead rem s).length = m
  induction m using Nat.strongRecOn generalizing buf limit s with
  | _ m ih =>
    rw [loop_apply]
    unfold takeToEndStep takeRead
    dsimp only
    by_cases h0 : limit = 0
    · subst h0
      rw [if_pos (by rfl), M.bind_ok (M.lift_ok _ _)]
      exact ⟨_, [], s, by rw [List.append_nil]; rfl, .refl (hu s h), Nat.le_refl _,
        fun n hn => by cases hn; exact ⟨by rw [List.append_nil], .inl rfl⟩, (fun _ h => by cases h), fun _ => rfl⟩
    · rw [if_neg (by simpa using h0)]
      have hl : 0 < limit := Nat.pos_of_ne_zero h0
      have hz := hz buf
      obtain ⟨q1, q2, q3⟩ := hP s (min (size buf) limit) h (hK buf limit hl) (by omega)
      obtain ⟨r, s1, ys, h1, h2, h3, h4⟩ := read_move hd chk (min (size buf) limit) q1 q2
      rw [h1, Res.bind_ok]
      have hlen := congrArg List.length h2.items
      rw [List.length_append] at hlen
      cases r with
      | error e =>
        dsimp only
        rw [M.bind_ok (M.lift_ok _ _)]
        dsimp only
        obtain ⟨h3, rfl⟩ := h3 e rfl
        by_cases hi : interrupted e = true
        · rw [if_pos hi]
          obtain ⟨r, ys, s', g1, g2, g3, g4, g5, _⟩ := ih (errs s1.source + (ahead rem s1).length)
            (by have : ([] : List I).length = 0 := rfl; omega) buf limit (hmove _ _ _ h h2) rfl
          exact ⟨r, ys, s', g1, h2.trans g2, g3, g4, fun e' he' => ⟨(g5 e' he').1, by
            have := (g5 e' he').2; omega⟩, fun h => absurd h h0⟩
        · rw [if_neg hi]
          refine ⟨.error e, [], s1, by rw [List.append_nil]; rfl, h2, Nat.zero_le _, nofun, fun e' he => ?_,
            fun h => absurd h h0⟩
          cases he
          exact ⟨by simpa using hi, (h3 e rfl).1⟩
      | ok zs =>
        obtain ⟨rfl, h5⟩ := h4 zs rfl
        dsimp only
        rw [M.bind_ok (M.lift_ok _ _)]
        match zs, h1, h2, hlen, h5 with
        | [], h1, h2, hlen, _ =>
          have hz := q3 s1 h1
          refine ⟨_, [], s1, by rw [List.append_nil]; rfl, h2, Nat.zero_le _, fun n hn => ?_,
            (fun _ h => by cases h), fun h => absurd h h0⟩
          cases hn
          exact ⟨by rw [List.append_nil], .inr hz⟩
        | z :: zs, h1, h2, hlen, h5 =>
          have he := h2.errs
          rw [List.length_cons] at hlen
          obtain ⟨r, ys, s', g1, g2, g3, g4, g5, _⟩ := ih (errs s1.source + (ahead rem s1).length)
            (by omega) (buf ++ z :: zs) (limit - (z :: zs).length) (hmove _ _ _ h h2) rfl
          refine ⟨r, z :: zs ++ ys, s', ?_, h2.trans g2, ?_, fun n hn => ?_,
            fun e' he' => ⟨(g5 e' he').1, Nat.lt_of_lt_of_le (g5 e' he').2 he⟩, fun h => absurd h h0⟩
          · rw [← List.append_assoc, List.length_append, Nat.sub_add_eq]
            exact g1
          · rw [List.length_append]; omega
          · rw [← List.append_assoc]
            refine ⟨(g4 n hn).1, (g4 n hn).2.imp_left fun h => ?_⟩
            rw [List.length_append]; omega

theorem bytes_spec (hd : Delivers S rem errs) (chk : Bool) (again : IoError → Bool) {P : Source S B → Prop}
    {K : Nat → Prop} {Q : Source S B → Prop} (hP : ReadsTo chk P K Q)
    (hmove : ∀ s ys s', P s → Move rem errs s ys s' → P s') (hK : K 1)
    (buf : List I) {s : Source S B} (h : P s) :
    ∃ r ys s', loop (bytesStep chk again) (buf, s) () = .ok ((r, s'), ()) ∧
      Move rem errs s ys s' ∧ (∀ zs, r = .ok zs → zs = buf ++ ys ∧ Q s') ∧
      ∀ e, r = .error e → again e = false ∧ errs s'.source < errs s.source := by
  generalize hm : errs s.source + (ahead rem s).length = m
  induction m using Nat.strongRecOn generalizing buf s with
  | _ m ih =>
    rw [loop_apply]
    unfold bytesStep
    dsimp only
    obtain ⟨q1, q2, q3⟩ := hP s 1 h hK Nat.one_pos
    obtain ⟨r, s1, ys, h1, h2, h3, h4⟩ := read_move hd chk 1 q1 q2
    rw [h1, M.bind_ok (M.lift_ok _ _)]
    have hlen := congrArg List.length h2.items
    rw [List.length_append] at hlen
    cases r with
    | error e =>
      dsimp only
      obtain ⟨h3, rfl⟩ := h3 e rfl
      by_cases hi : again e = true
      · rw [if_pos hi]
        obtain ⟨r, ys, s', g1, g2, g3, g4⟩ := ih (errs s1.source + (ahead rem s1).length)
          (by have : ([] : List I).length = 0 := rfl; omega) buf (hmove _ _ _ h h2) rfl
        exact ⟨r, ys, s', g1, h2.trans g2, g3, fun e' he' => ⟨(g4 e' he').1, by
          have := (g4 e' he').2; omega⟩⟩
      · rw [if_neg hi]
        refine ⟨.error e, [], s1, rfl, h2, nofun, fun e' he => ?_⟩
        cases he
        exact ⟨by simpa using hi, (h3 e rfl).1⟩
    | ok zs =>
      obtain ⟨rfl, h5⟩ := h4 zs rfl
      match zs, h1, h2, hlen, h5 with
      | [], h1, h2, hlen, _ =>
        have hz := q3 s1 h1
        refine ⟨_, [], s1, rfl, h2, fun n hn => ?_, (fun _ h => by cases h)⟩
        cases hn
        exact ⟨by rw [List.append_nil], hz⟩
      | [z], h1, h2, hlen, _ =>
        have he := h2.errs
        rw [List.length_singleton] at hlen
        obtain ⟨r, ys, s', g1, g2, g3, g4⟩ := ih (errs s1.source + (ahead rem s1).length)
          (by omega) (buf ++ [z]) (hmove _ _ _ h h2) rfl
        exact ⟨r, z :: ys, s', g1, h2.trans g2,
          fun n hn => by have := g3 n hn; rwa [List.append_assoc] at this,
          fun e' he' => ⟨(g4 e' he').1, Nat.lt_of_lt_of_le (g4 e' he').2 he⟩⟩
      | _ :: _ :: _, _, _, _, h5 => simp at h5

end Inherited

end Chomp
