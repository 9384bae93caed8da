import Verif.Lemmas.Std
import Verif.Lemmas.Memory
import Verif.Spec.Limit

/-
Reading lines from a `GrowingBuffer` with a limit.
-/

namespace Chomp

open Spec

namespace Inherited

variable {S B I : Type} [DataSource S I] [HonestSource S I] [Buffer B I] [LawfulBuffer B I]
  {rem : S → List I} {errs : S → Nat}

/-- In the states in `P`, `fill_buf` and `consume` go through the items `avail`, and `fill_buf` delivers something as
long as there are any. -/
structure Stretch (rem : S → List I) (errs : S → Nat) (chk : Bool) (P : Source S B → Prop)
    (avail : Source S B → List I) : Prop where
  usable : ∀ s, P s → Usable s
  fill : ∀ s, P s → ∃ r s', s.fillBuf chk = .ok (r, s') ∧ Move rem errs s [] s' ∧ P s' ∧ avail s' = avail s ∧
    (∀ e, r = .error e → errs s'.source < errs s.source) ∧
    ∀ ys, r = .ok ys → ys = held s' ∧ (ys = [] → avail s = [])
  consume : ∀ s k s', P s → k ≤ (held s).length → s.consume chk k = .ok s' →
    P s' ∧ avail s = (held s).take k ++ avail s'

omit [HonestSource S I] in
theorem readUntil_stretch [DecidableEq I] (chk : Bool)
    (interrupted : IoError → Bool) (delim : I) {P : Source S B → Prop} {avail : Source S B → List I}
    (hP : Stretch rem errs chk P avail) (buf : List I) (n : Nat) {s : Source S B} (h : P s) :
    ∃ r ys s', loop (readUntilStep chk interrupted delim) (buf, n, s) () = .ok ((r, buf ++ ys, s'), ()) ∧
      Move rem errs s ys s' ∧ P s' ∧ avail s = ys ++ avail s' ∧
      (∀ l, r = .ok l → l = n + ys.length ∧ ys = upTo delim (avail s)) ∧
      ∀ e, r = .error e → interrupted e = false ∧ delim ∉ ys ∧ errs s'.source < errs s.source := by
  generalize hm : errs s.source + (avail s).length = m
  induction m using Nat.strongRecOn generalizing buf n s with
  | _ m ih =>
    obtain ⟨r, s1, h1, h2, p1, hs1, h3, h4⟩ := hP.fill s h
    rw [loop_apply]
    unfold readUntilStep
    dsimp only
    rw [h1, M.bind_ok (M.lift_ok _ _)]
    cases r with
    | error e =>
      dsimp only
      have h3 := h3 e rfl
      by_cases hi : interrupted e = true
      · rw [if_pos hi]
        obtain ⟨r, ys, s', g1, g2, g5, g6, g3, g4⟩ := ih (errs s1.source + (avail s1).length)
          (by rw [hs1]; omega) buf n p1 rfl
        exact ⟨r, ys, s', g1, h2.trans g2, g5, hs1 ▸ g6, fun l hl => by rw [← hs1]; exact g3 l hl,
          fun e' he => ⟨(g4 e' he).1, (g4 e' he).2.1, by have := (g4 e' he).2.2; omega⟩⟩
      · rw [if_neg hi]
        refine ⟨.error e, [], s1, by rw [List.append_nil]; rfl, h2, p1, hs1.symm, nofun, fun e' he => ?_⟩
        cases he
        exact ⟨by simpa using hi, List.not_mem_nil, h3⟩
    | ok ys =>
      obtain ⟨rfl, h5⟩ := h4 ys rfl
      dsimp only
      obtain ⟨s3, c1, c2⟩ := Move.consume (rem := rem) (errs := errs) chk h2.usable (Nat.le_refl _)
      obtain ⟨c3, c4⟩ := hP.consume s1 _ s3 p1 (Nat.le_refl _) c1
      rw [List.take_length] at c2 c4
      cases hf : (held s1).findIdx? (· == delim) with
      | some i =>
        obtain ⟨k1, k2⟩ := find_some hf
        obtain ⟨s2, g1, g2⟩ := Move.consume (rem := rem) (errs := errs) chk h2.usable k1
        obtain ⟨p2, g3⟩ := hP.consume s1 _ s2 p1 k1 g1
        dsimp only
        rw [g1, M.bind_ok (M.lift_ok _ _)]
        refine ⟨_, _, s2, rfl, h2.trans g2, p2, hs1 ▸ g3, fun l hl => ?_, (fun _ h => by cases h)⟩
        cases hl
        refine ⟨by rw [List.length_take, Nat.min_eq_left k1], ?_⟩
        rw [← hs1, c4]
        exact (k2 _).symm
      | none =>
        have hno := find_none hf
        dsimp only
        rw [c1, M.bind_ok (M.lift_ok _ _)]
        by_cases h0 : held s1 = []
        · rw [if_pos (by rw [h0]; rfl)]
          have hz := h5 h0
          rw [h0] at c2 c4
          refine ⟨_, [], s3, by rw [List.append_nil]; rfl, h2.trans c2, c3, hs1 ▸ c4, fun l hl => ?_,
            (fun _ h => by cases h)⟩
          cases hl
          exact ⟨rfl, by rw [hz]; rfl⟩
        · rw [if_neg (by simpa using h0)]
          have hlen := List.length_pos_iff.mpr h0
          have hl2 := congrArg List.length c4
          rw [List.length_append] at hl2
          have he2 := c2.errs
          have he1 := h2.errs
          have hl1 := congrArg List.length hs1
          obtain ⟨r, ys, s', f1, f2, f5, f6, f3, f4⟩ := ih (errs s3.source + (avail s3).length) (by omega)
            (buf ++ held s1) (n + (held s1).length) c3 rfl
          refine ⟨r, held s1 ++ ys, s', by rw [← List.append_assoc]; exact f1,
            (h2.trans c2).trans f2, f5, ?_, fun l hl => ?_, fun e he => ?_⟩
          · rw [← hs1, c4, f6, List.append_assoc]
          · obtain ⟨a1, a2⟩ := f3 l hl
            refine ⟨by rw [a1, List.length_append]; omega, ?_⟩
            rw [← hs1, c4, upTo_append hno, ← a2]
          · obtain ⟨a1, a2, a3⟩ := f4 e he
            exact ⟨a1, by rw [List.mem_append, not_or]; exact ⟨hno, a2⟩, by omega⟩

omit [HonestSource S I] in
theorem split_stretch [DecidableEq I] (chk : Bool)
    (interrupted : IoError → Bool) (delim : I) {P : Source S B → Prop} {avail : Source S B → List I}
    (hP : Stretch rem errs chk P avail) (ps : List (List I)) {s : Source S B} (h : P s) :
    ∃ r ys s', loop (splitStep chk interrupted delim) (ps, s) () = .ok ((r, s'), ()) ∧
      Move rem errs s ys s' ∧ P s' ∧ avail s = ys ++ avail s' ∧
      (∀ l, r = .ok l → l = ps ++ pieces delim (avail s) ∧ ys = avail s) ∧
      ∀ e, r = .error e → interrupted e = false ∧ errs s'.source < errs s.source := by
  generalize hm : (avail s).length = m
  induction m using Nat.strongRecOn generalizing ps s with
  | _ m ih =>
    obtain ⟨r, ys, s1, h1, h2, p1, ha, h3, h4⟩ := readUntil_stretch chk interrupted delim hP [] 0 h
    rw [loop_apply]
    have h1 : readUntil chk interrupted delim [] s () = .ok ((r, ys, s1), ()) := h1
    have hstep : splitStep chk interrupted delim (ps, s) () = splitCase delim ps (r, ys, s1) := by
      unfold splitStep
      dsimp only
      rw [M.bind_ok h1]
      match r with
      | .error e => rfl
      | .ok 0 => rfl
      | .ok (n + 1) =>
        show (ite _ _ _ : M Unit _) () = (ite (ys.getLast? = some delim) _ _)
        by_cases hl : ys.getLast? = some delim
        · rw [if_pos hl, if_pos hl]; rfl
        · rw [if_neg hl, if_neg hl]; rfl
    rw [hstep]
    cases r with
    | error e =>
      refine ⟨.error e, ys, s1, rfl, h2, p1, ha, nofun, fun e' he => ?_⟩
      cases he
      exact ⟨(h4 e rfl).1, (h4 e rfl).2.2⟩
    | ok n =>
      obtain ⟨k1, k2⟩ := h3 n rfl
      rw [Nat.zero_add] at k1
      by_cases h0 : avail s = []
      · have hy : ys = [] := by rw [k2, h0]; rfl
        subst hy
        subst k1
        refine ⟨.ok ps, [], s1, rfl, h2, p1, ha, fun l hl => ?_, (fun _ h => by cases h)⟩
        cases hl
        exact ⟨by rw [h0]; simp [pieces], h0.symm⟩
      · have hy : ys ≠ [] := by
          rw [k2]
          match hm : avail s, h0 with
          | x :: xs, _ => unfold upTo; split <;> simp
        have hn : n ≠ 0 := by rw [k1]; exact fun h => hy (List.length_eq_zero_iff.mp h)
        match n, hn with
        | n + 1, _ =>
          unfold splitCase
          dsimp only
          have hlen := congrArg List.length ha
          rw [List.length_append] at hlen
          rcases pieces_cases delim (avail s) h0 with ⟨q, rest, e1, e2, e3⟩ | ⟨e1, e2, e3⟩
          · have hyq : ys = q ++ [delim] := k2.trans e2
            have hrest : avail s1 = rest := by
              have := ha
              rw [e1, hyq, List.append_assoc] at this
              have := List.append_cancel_left this
              simpa using this.symm
            rw [if_pos (by rw [hyq]; simp), hyq, List.dropLast_concat]
            obtain ⟨r, zs, s', g1, g2, g5, g6, g3, g4⟩ := ih (avail s1).length (by omega) (ps ++ [q]) p1 rfl
            refine ⟨r, ys ++ zs, s', g1, h2.trans g2, g5, by rw [ha, g6, List.append_assoc], fun l hl => ?_,
              fun e he => ⟨(g4 e he).1, Nat.lt_of_lt_of_le (g4 e he).2 h2.errs⟩⟩
            obtain ⟨f1, f2⟩ := g3 l hl
            exact ⟨by rw [f1, e3, hrest, List.append_assoc]; rfl, by rw [f2, ha]⟩
          · have hyq : ys = avail s := k2.trans e1
            have hrest : avail s1 = [] := by
              rw [hyq] at ha
              have := congrArg List.length ha
              rw [List.length_append] at this
              exact List.length_eq_zero_iff.mp (by omega)
            rw [if_neg (by
              rw [hyq]
              intro hl
              exact e2 (List.mem_of_getLast? hl))]
            obtain ⟨r, zs, s', g1, g2, g5, g6, g3, g4⟩ := ih (avail s1).length (by omega) (ps ++ [ys]) p1 rfl
            refine ⟨r, ys ++ zs, s', g1, h2.trans g2, g5, by rw [ha, g6, List.append_assoc], fun l hl => ?_,
              fun e he => ⟨(g4 e he).1, Nat.lt_of_lt_of_le (g4 e he).2 h2.errs⟩⟩
            obtain ⟨f1, f2⟩ := g3 l hl
            exact ⟨by rw [f1, e3, hrest, hyq]; simp [pieces], by rw [f2, ← ha]⟩

/-- `request_space` up to the capacity does nothing above the limit, and otherwise moves the contents. It does not
allocate. -/
theorem request_capacity {b : GrowingBuffer I} (h : b.Inv) (chk : Bool) :
    ∃ b', Buffer.requestSpace chk (Buffer.capacity b - (LawfulBuffer.view b).length) b = .ok b' ∧
      Buffer.capacity b' = Buffer.capacity b ∧
      (b.limit ≠ 0 ∧ b.limit < Buffer.capacity b → b' = b) ∧
      (¬ (b.limit ≠ 0 ∧ b.limit < Buffer.capacity b) →
        Buffer.capacity b - (LawfulBuffer.view b).length ≤ LawfulBuffer.room b') := by
  have hc : b.cap = b.buffer.length := h.2
  have hlen := h.1.len
  have h1 := h.1.used_le
  have h2 := h.1.populated_le
  have h3 := h.1.size
  have h4 := isize_lt
  have hv : LawfulBuffer.view b = b.data.drop b.used := rfl
  have hk : Buffer.capacity b = b.buffer.length := rfl
  rw [show Buffer.requestSpace chk (Buffer.capacity b - (LawfulBuffer.view b).length) b =
    GrowingBuffer.requestSpace chk (Buffer.capacity b - (LawfulBuffer.view b).length) b from rfl,
    GrowingBuffer.requestSpace_eq h, hv, hk, hc]
  by_cases hl : b.limit ≠ 0 ∧ b.buffer.length > b.limit
  · rw [if_pos hl]
    exact ⟨b, rfl, rfl, fun _ => rfl, fun h => absurd hl h⟩
  · rw [if_neg hl, uaddB_ok (by omega), Res.bind_ok, if_neg (by omega)]
    obtain ⟨b', e, _, _, e2, _, hr⟩ := GrowingBuffer.shift_inv h chk (b.buffer.length - (b.data.drop b.used).length)
    exact ⟨b', e, e2, fun h => absurd h hl, fun _ => hr (by omega)⟩

theorem fillBuf_limit {chk : Bool} {s s' : Source S (GrowingBuffer I)} {r : Except IoError (List I)} (h : Usable s)
    (hr : s.fillBuf chk = .ok (r, s')) : s'.buffer.limit = s.buffer.limit := by
  unfold Source.fillBuf at hr
  dsimp only at hr
  rw [Res.bind_eq_ok] at hr
  obtain ⟨⟨r1, s1⟩, h1, h2⟩ := hr
  have := (Source.filled_grown h (Nat.le_refl _) h1).1.limit
  cases r1 with
  | error e => cases h2; exact this
  | ok n =>
    dsimp only at h2
    rw [Res.bind_eq_ok] at h2
    obtain ⟨_, _, h2⟩ := h2
    cases h2
    exact this

theorem stretch_growing (hd : Delivers S rem errs) (chk : Bool) :
    Stretch rem errs chk (fun s : Source S (GrowingBuffer I) => Usable s) (reachable rem) := by
  refine ⟨fun _ h => h, fun s h => ?_, fun s k s' h hk hc => ?_⟩
  · obtain ⟨b1, q1, q2, q3, q4⟩ := request_capacity (b := s.buffer) h chk
    -- what `fill_buf` leaves
    have key : ∀ r s' xs, Source.Filled chk (Buffer.capacity s.buffer) s r s' xs → s'.buffer.limit = s.buffer.limit →
        reachable rem s' = reachable rem s := by
      intro r s' xs hf hl
      have hm := (Move.of_filled hd hf).items
      have hcap : s'.capacity = s.capacity := by
        by_cases hlt : (held s).length < Buffer.capacity s.buffer
        · obtain ⟨b2, e1, _, e3⟩ := hf.space hlt
          rw [show Buffer.requestSpace chk (Buffer.capacity s.buffer - (held s).length) s.buffer = .ok b1 from q1] at e1
          cases e1
          exact e3.trans q2
        · rw [(hf.none (by omega)).1]
      unfold reachable
      rw [hl, hcap, show ahead rem s = ahead rem s' from hm]
      split
      · rename_i ha
        have : (held s').length + LawfulBuffer.room s'.buffer = (held s).length + LawfulBuffer.room s.buffer := by
          by_cases hlt : (held s).length < Buffer.capacity s.buffer
          · obtain ⟨b2, e1, e2, _⟩ := hf.space hlt
            rw [show Buffer.requestSpace chk (Buffer.capacity s.buffer - (held s).length) s.buffer = .ok b1 from q1,
              q3 ha] at e1
            cases e1
            have := congrArg List.length hf.held
            rw [List.length_append] at this
            omega
          · rw [(hf.none (by omega)).1]
        rw [this]
      · rfl
    rcases Source.fillBuf_spec chk s h with ⟨_, _, h2⟩ | ⟨e, s1, xs, h1, h2⟩ | ⟨n, s1, xs, h1, h2⟩
    · rw [show Buffer.requestSpace chk (Buffer.capacity s.buffer - (held s).length) s.buffer = .ok b1 from q1] at h2
      cases h2
    · exact ⟨_, s1, h1, .of_filled hd h2, h2.usable, key _ _ _ h2 (fillBuf_limit h h1),
        fun e' _ => (h2.err e rfl).2.errs hd, (fun ys hy => by cases hy)⟩
    · have hk := key _ _ _ h2 (fillBuf_limit h h1)
      refine ⟨_, s1, h1, .of_filled hd h2, h2.usable, hk, (fun e' he => by cases he), fun ys hy => ?_⟩
      cases hy
      refine ⟨rfl, fun h0 => ?_⟩
      by_cases hz : s.capacity = 0
      · unfold reachable
        rw [if_neg (by omega), if_pos hz]
      · by_cases ha : s.buffer.limit ≠ 0 ∧ s.buffer.limit < s.capacity
        · rw [← hk]
          unfold reachable
          have hcap : s1.capacity = s.capacity := by
            by_cases hlt : (held s).length < Buffer.capacity s.buffer
            · obtain ⟨b2, e1, _, e3⟩ := h2.space hlt
              rw [show Buffer.requestSpace chk (Buffer.capacity s.buffer - (held s).length) s.buffer = .ok b1 from q1]
                at e1
              cases e1
              exact e3.trans q2
            · rw [(h2.none (by omega)).1]
          rw [fillBuf_limit h h1, hcap, if_pos ha, h0]
          rcases (h2.ok n rfl).2 with g | ⟨_, s2, g4, g5, g6, g7⟩
          · rw [h0] at g
            exact absurd (Nat.le_zero.mp g) hz
          · by_cases hr : LawfulBuffer.room s1.buffer = 0
            · rw [hr]; rfl
            · have e := hd.ok s2 _ 0 g6
              have : rem s1.source = [] := by
                have e2 : (DataSource.read s2 (LawfulBuffer.room s1.buffer)).2 = s1.source :=
                  congrArg Prod.snd g5
                have e1 := e.1
                rw [g7, List.nil_append, e2] at e1
                rw [← e1]
                apply Classical.byContradiction
                intro hne
                exact absurd (e.2.2 (by omega) hne) (by omega)
              unfold ahead
              rw [h0, this]
              exact List.take_nil
        · unfold reachable
          rw [if_neg ha, if_neg hz]
          exact Props.C57_growing_used hd chk s s1 h (by omega) (by omega) (h0 ▸ h1)
  · obtain ⟨s1, h1, hm⟩ := Move.consume (rem := rem) (errs := errs) chk h hk
    rw [hc] at h1
    cases h1
    refine ⟨hm.usable, ?_⟩
    have hb : LawfulBuffer.Inv s.buffer := h
    obtain ⟨b, e1, _, e3, e4, e5, _⟩ := LawfulBuffer.consume chk hb hk
    have hs : s' = { s with buffer := b } := by
      unfold Source.consume at hc
      rw [e1] at hc
      cases hc
      rfl
    have hl : s'.buffer.limit = s.buffer.limit := by
      rw [hs]
      exact (GrowingBuffer.consume_fields e1).2.1
    have hcap : s'.capacity = s.capacity := by rw [hs]; exact e5
    have hroom : LawfulBuffer.room s'.buffer = LawfulBuffer.room s.buffer := by rw [hs]; exact e4
    have hheld : held s' = (held s).drop k := by rw [hs]; exact e3
    unfold reachable
    rw [hl, hcap, hroom, hheld, List.length_drop]
    split
    · rw [hm.items, List.take_append, List.length_take, Nat.min_eq_left hk, List.take_of_length_le (by
        rw [List.length_take]; omega)]
      congr 2
      omega
    · split
      · rename_i hz
        have := LawfulBuffer.size hb
        have hh : held s = [] := by
          have h1 := h.1.used_le
          have h2 := h.1.populated_le
          have h3 := h.1.len
          have hz : s.buffer.buffer.length = 0 := hz
          exact List.length_eq_zero_iff.mp (show (s.buffer.data.drop s.buffer.used).length = 0 by omega)
        rw [hh, List.take_nil]
        rfl
      · exact hm.items

/-- `read` into a slice which is not astronomic finds nothing only in the states in `Q`. -/
def EndsIn (chk : Bool) (N : Nat) (Q : Source S B → Prop) : Prop :=
  ∀ s k, Usable s → 0 < k → k ≤ N →
    ((held s).length < k → Buffer.requestSpace chk (k - (held s).length) s.buffer ≠ .panic) ∧
    ∀ s', s.read chk k = .ok (.ok [], s') → Q s'

theorem readExact_ends (hd : Delivers S rem errs) (chk : Bool) (interrupted : IoError → Bool)
    (eof : IoError) {N : Nat} {Q : Source S B → Prop} (hQ : EndsIn chk N Q)
    (buf : List I) (n : Nat) {s : Source S B} (hu : Usable s) (hn : n ≤ N) :
    ∃ r ys s', loop (readExactStep chk interrupted eof) (buf, n, s) () = .ok ((r, buf ++ ys, s'), ()) ∧
      Move rem errs s ys s' ∧ (r = .ok () → ys.length = n) ∧
      ∀ e, r = .error e → ys.length < n ∧
        (e = eof ∧ Q s' ∨ interrupted e = false ∧ errs s'.source < errs s.source) := by
  generalize hm : errs s.source + n = m
  induction m using Nat.strongRecOn generalizing buf n s with
  | _ m ih =>
    rw [loop_apply]
    unfold readExactStep
    dsimp only
    by_cases h0 : n = 0
    · subst h0
      rw [if_pos (by rfl)]
      exact ⟨_, [], s, by rw [List.append_nil]; rfl, .refl hu, fun _ => rfl, (fun _ h => by cases h)⟩
    · rw [if_neg (by simpa using h0)]
      obtain ⟨q2, q3⟩ := hQ s n hu (by omega) hn
      obtain ⟨r, s1, ys, h1, h2, h3, h4⟩ := read_move hd chk n hu q2
      rw [h1, M.bind_ok (M.lift_ok _ _)]
      cases r with
      | error e =>
        dsimp only
        obtain ⟨h3, rfl⟩ := h3 e rfl
        by_cases hi : interrupted e = true
        · rw [if_pos hi]
          obtain ⟨r, ys, s', g1, g2, g3, g4⟩ := ih (errs s1.source + n) (by omega) buf n h2.usable hn rfl
          exact ⟨r, ys, s', g1, h2.trans g2, g3, fun e' he' => ⟨(g4 e' he').1, (g4 e' he').2.imp_right
            fun k => ⟨k.1, by omega⟩⟩⟩
        · rw [if_neg hi]
          refine ⟨.error e, [], s1, by rw [List.append_nil]; rfl, h2, nofun, fun e' he => ?_⟩
          cases he
          exact ⟨Nat.pos_of_ne_zero h0, .inr ⟨by simpa using hi, (h3 e rfl).1⟩⟩
      | ok zs =>
        obtain ⟨rfl, h5⟩ := h4 zs rfl
        match zs, h1, h2, h5 with
        | [], h1, h2, h5 =>
          refine ⟨.error eof, [], s1, by rw [List.append_nil]; rfl, h2, nofun, fun e' he => ?_⟩
          cases he
          exact ⟨Nat.pos_of_ne_zero h0, .inl ⟨rfl, q3 s1 h1⟩⟩
        | z :: zs, h1, h2, h5 =>
          have he := h2.errs
          rw [List.length_cons] at h5
          obtain ⟨r, ys, s', g1, g2, g3, g4⟩ := ih (errs s1.source + (n - (zs.length + 1)))
            (by omega) (buf ++ z :: zs) (n - (zs.length + 1)) h2.usable (by omega) rfl
          refine ⟨r, z :: zs ++ ys, s', by rw [← List.append_assoc]; exact g1, h2.trans g2,
            fun hr => ?_, fun e he => ?_⟩
          · have := g3 hr
            rw [List.length_append, List.length_cons]; omega
          · have := g4 e he
            exact ⟨by rw [List.length_append, List.length_cons]; omega, this.2.imp_right
              fun k => ⟨k.1, by omega⟩⟩

theorem readToEnd_ends (hd : Delivers S rem errs) (chk : Bool) (interrupted : IoError → Bool)
    (size : List I → Nat) {N : Nat} {Q : Source S B → Prop} (hQ : EndsIn chk N Q)
    (hz : ∀ l, 0 < size l ∧ size l ≤ N) (buf : List I) {s : Source S B} (h : Usable s) :
    ∃ r ys s', loop (readToEndStep chk interrupted size) (buf, s) () = .ok ((r, buf ++ ys, s'), ()) ∧
      Move rem errs s ys s' ∧ (∀ n, r = .ok n → n = (buf ++ ys).length ∧ Q s') ∧
      ∀ e, r = .error e → interrupted e = false ∧ errs s'.source < errs s.source := by
  generalize hm : errs s.source + (ahead rem s).length = m
  induction m using Nat.strongRecOn generalizing buf s with
  | _ m ih =>
    rw [loop_apply]
    unfold readToEndStep
    dsimp only
    obtain ⟨q2, q3⟩ := hQ s (size buf) h (hz buf).1 (hz buf).2
    obtain ⟨r, s1, ys, h1, h2, h3, h4⟩ := read_move hd chk (size buf) h q2
    rw [h1, M.bind_ok (M.lift_ok _ _)]
    have hlen := congrArg List.length h2.items
    rw [List.length_append] at hlen
    cases r with
    | error e =>
      dsimp only
      obtain ⟨h3, rfl⟩ := h3 e rfl
      by_cases hi : interrupted e = true
      · rw [if_pos hi]
        obtain ⟨r, ys, s', g1, g2, g3, g4⟩ := ih (errs s1.source + (ahead rem s1).length)
          (by have : ([] : List I).length = 0 := rfl; omega) buf h2.usable rfl
        exact ⟨r, ys, s', g1, h2.trans g2, g3, fun e' he' => ⟨(g4 e' he').1, by
          have := (g4 e' he').2; omega⟩⟩
      · rw [if_neg hi]
        refine ⟨.error e, [], s1, by rw [List.append_nil]; rfl, h2, nofun, fun e' he => ?_⟩
        cases he
        exact ⟨by simpa using hi, (h3 e rfl).1⟩
    | ok zs =>
      obtain ⟨rfl, h5⟩ := h4 zs rfl
      match zs, h1, h2, hlen with
      | [], h1, h2, hlen =>
        refine ⟨_, [], s1, by rw [List.append_nil]; rfl, h2, fun n hn => ?_, (fun _ h => by cases h)⟩
        cases hn
        exact ⟨by rw [List.append_nil], q3 s1 h1⟩
      | z :: zs, h1, h2, hlen =>
        have he := h2.errs
        rw [List.length_cons] at hlen
        obtain ⟨r, ys, s', g1, g2, g3, g4⟩ := ih (errs s1.source + (ahead rem s1).length)
          (by omega) (buf ++ z :: zs) h2.usable rfl
        exact ⟨r, z :: zs ++ ys, s', by rw [← List.append_assoc]; exact g1, h2.trans g2,
          fun n hn => by rw [← List.append_assoc]; exact g3 n hn,
          fun e' he' => ⟨(g4 e' he').1, Nat.lt_of_lt_of_le (g4 e' he').2 he⟩⟩

/-- `request_space` does nothing above the limit, and otherwise makes room unless the sizes are astronomic. -/
theorem request_limit {b : GrowingBuffer I} (h : b.Inv) (chk : Bool) (n : Nat)
    (hn : (LawfulBuffer.view b).length + n ≤ 2 ^ 62) :
    ∃ b', Buffer.requestSpace chk n b = .ok b' ∧ (b.limit ≠ 0 ∧ b.limit < Buffer.capacity b → b' = b) ∧
      (¬ (b.limit ≠ 0 ∧ b.limit < Buffer.capacity b) → n ≤ LawfulBuffer.room b') := by
  have hc : b.cap = b.buffer.length := h.2
  have e1 : usizeMax = 2 ^ 64 - 1 := rfl
  have e2 : isizeMax = 2 ^ 63 - 1 := rfl
  have hk : Buffer.capacity b = b.buffer.length := rfl
  rw [show Buffer.requestSpace chk n b = GrowingBuffer.requestSpace chk n b from rfl,
    GrowingBuffer.requestSpace_eq h, hk, hc]
  have hn : (b.data.drop b.used).length + n ≤ 2 ^ 62 := hn
  by_cases hl : b.limit ≠ 0 ∧ b.buffer.length > b.limit
  · rw [if_pos hl]
    exact ⟨b, rfl, fun _ => rfl, fun h => absurd hl h⟩
  · rw [if_neg hl, uaddB_ok (by omega), Res.bind_ok]
    split
    · rw [if_pos (by omega)]
      obtain ⟨h1, h2, h3⟩ := GrowingBuffer.grow_inv h (n := n) (by omega)
      obtain ⟨b', e, _, _, _, _, hr⟩ := GrowingBuffer.shift_inv h1 chk n
      refine ⟨b', e, fun h => absurd h hl, fun _ => hr ?_⟩
      rw [h2]
      have := h.1.len
      have := h.1.populated_le
      omega
    · obtain ⟨b', e, _, _, _, _, hr⟩ := GrowingBuffer.shift_inv h chk n
      exact ⟨b', e, fun h => absurd h hl, fun _ => hr (by omega)⟩

theorem read_limit {chk : Bool} {k : Nat} {s s' : Source S (GrowingBuffer I)} {r : Except IoError (List I)} (h : Usable s)
    (hr : s.read chk k = .ok (r, s')) : s'.buffer.limit = s.buffer.limit := by
  rw [Source.read_eq chk k s h, Res.bind_eq_ok] at hr
  obtain ⟨⟨r1, s1⟩, h1, h2⟩ := hr
  have hl := (Source.filled_grown h (Nat.le_refl _) h1).1.limit
  cases r1 with
  | error e => cases h2; exact hl
  | ok n =>
    dsimp only at h2
    rw [Res.bind_eq_ok] at h2
    obtain ⟨_, _, h2⟩ := h2
    rw [Res.bind_eq_ok] at h2
    obtain ⟨b, h3, h2⟩ := h2
    cases h2
    exact (GrowingBuffer.consume_fields h3).2.1.trans hl

theorem ends_growing (hd : Delivers S rem errs) (chk : Bool) :
    EndsIn chk (2 ^ 62) (fun s : Source S (GrowingBuffer I) => ahead rem s = [] ∨
      s.buffer.limit ≠ 0 ∧ s.buffer.limit < s.capacity) := by
  intro s k h hk hN
  have hreq : (held s).length < k → _ := fun hlt => request_limit (b := s.buffer) h chk (k - (held s).length)
    (show (held s).length + _ ≤ _ by omega)
  refine ⟨fun hlt h2 => ?_, fun s' hr => ?_⟩
  · obtain ⟨b', e, _⟩ := hreq hlt
    rw [e] at h2
    cases h2
  · have hlim := read_limit h hr
    rcases Source.read_spec chk k s h with ⟨h1, _⟩ | ⟨e, s1, xs, h1, h2⟩ | ⟨n, s1, xs, b, h1, h2, h3, h4, h6, h7, _⟩
    · rw [h1] at hr; cases hr
    · rw [h1] at hr; cases hr
    · rw [h1] at hr
      simp only [Res.ok.injEq, Prod.mk.injEq, Except.ok.injEq, List.take_eq_nil_iff] at hr
      have h0 : held s1 = [] := hr.1.resolve_left (by omega)
      have h5 : held s = [] ∧ xs = [] := by
        have := h2.held
        rw [h0] at this
        exact List.append_eq_nil_iff.mp this.symm
      have hlt : (held s).length < k := by rw [h5.1]; exact hk
      obtain ⟨b1, g1, g2, g3⟩ := h2.space hlt
      obtain ⟨b2, e1, e2, e3⟩ := hreq hlt
      rw [e1] at g1
      cases g1
      have hcap : s'.capacity = Buffer.capacity b1 := by
        rw [← hr.2]
        exact h7.trans g3
      by_cases ha : s.buffer.limit ≠ 0 ∧ s.buffer.limit < Buffer.capacity s.buffer
      · right
        rw [hlim, hcap, e2 ha]
        exact ha
      · left
        have hroom : 0 < LawfulBuffer.room s1.buffer := by
          have := e3 ha
          rw [h5.1] at this
          rw [h5.2] at g2
          simp at this g2
          omega
        rcases (h2.ok n rfl).2 with g | ⟨_, s2, g4, g5, g6, g7⟩
        · rw [h0] at g; simp at g; omega
        · have e := hd.ok s2 _ 0 g6
          have hrem : rem s1.source = [] := by
            have e2 : (DataSource.read s2 (LawfulBuffer.room s1.buffer)).2 = s1.source := congrArg Prod.snd g5
            have e1 := e.1
            rw [g7, List.nil_append, e2] at e1
            rw [← e1]
            apply Classical.byContradiction
            intro hne
            exact absurd (e.2.2 hroom hne) (by omega)
          rw [← hr.2]
          unfold ahead
          rw [show held { s1 with buffer := b } = (held s1).drop k from h4, h0, hrem, List.drop_nil]
          rfl

end Inherited

end Chomp
