import Verif.Lemmas.Script

/-
C44–C47, C64, C65: the two buffers.
-/

namespace Chomp.Props

/-! ### C44 -/

/-- Creation: any size from 1 on; size 0 panics. -/
theorem C44_create (size : Nat) :
    (size = 0 → FixedSizeBuffer.withSize (I := I) size = .panic) ∧
    (0 < size → size ≤ isizeMax → ∃ b : FixedSizeBuffer I, FixedSizeBuffer.withSize size = .ok b ∧
      Buffer.deref b = .ok [] ∧ Buffer.capacity b = size) := by
  refine ⟨fun h => by subst h; rfl, fun h0 h1 => ?_⟩
  obtain ⟨b, hb, hi, hv, hl⟩ := FixedSizeBuffer.withSize_inv (I := I) h0 h1
  exact ⟨b, hb, (LawfulBuffer.deref (B := FixedSizeBuffer I) hi).trans (by rw [← hv]; rfl), hl⟩

theorem withSize_inv {size : Nat} {b : FixedSizeBuffer I} (hb : FixedSizeBuffer.withSize size = .ok b) :
    LawfulBuffer.Inv b ∧ LawfulBuffer.view b = [] ∧ Buffer.capacity b = size := by
  by_cases h0 : 0 < size
  · by_cases h1 : size ≤ isizeMax
    · obtain ⟨b', hb', hi, hv, hl⟩ := FixedSizeBuffer.withSize_inv (I := I) h0 h1
      rw [hb] at hb'
      cases hb'
      exact ⟨hi, hv, hl⟩
    · simp [FixedSizeBuffer.withSize, assert, h0, h1] at hb
  · simp [FixedSizeBuffer.withSize, assert, h0] at hb

theorem fixed_runOps [DataSource S I] [HonestSource S I] (chk : Bool) :
    ∀ (ops : List BufOp) (s : S) (b : FixedSizeBuffer I), LawfulBuffer.Inv b → Legal chk ops (s, b) →
    ∃ s' b', runOps chk ops (s, b) = .ok (s', b') ∧ Buffer.capacity b' = Buffer.capacity b := by
  intro ops
  induction ops with
  | nil => intro s b _ _; exact ⟨s, b, rfl, rfl⟩
  | cons op ops ih =>
    intro s b h hl
    have key : ∃ s1 b1, op.run chk (s, b) = .ok (s1, b1) ∧ LawfulBuffer.Inv b1 ∧
        Buffer.capacity b1 = Buffer.capacity b := by
      rcases BufOp.run_inv chk op s b h (legal_head h hl) with
        ⟨⟨n, _, hp⟩, _⟩ | ⟨s1, b1, xs, h1, h2, _, _, _, _, h7⟩
      · obtain ⟨b', h1, _⟩ := FixedSizeBuffer.requestSpace_inv (b := b) h chk n
        have e : Buffer.requestSpace chk n b = .ok b' := h1
        rw [e] at hp
        cases hp
      · refine ⟨s1, b1, h1, h2, ?_⟩
        cases op with
        | requestSpace n =>
          obtain ⟨b', g1, _, _, g4, _⟩ := FixedSizeBuffer.requestSpace_inv (b := b) h chk n
          have e : Buffer.requestSpace chk n b = .ok b' := g1
          simp only [BufOp.run, e, Res.bind_ok, Res.ok.injEq, Prod.mk.injEq] at h1
          rw [← h1.2]
          exact g4
        | _ => exact h7 (by intro n h; cases h)
    obtain ⟨s1, b1, h1, h2, h3⟩ := key
    obtain ⟨s2, b2, g1, g2⟩ := ih s1 b1 h2 (hl.2 _ h1)
    exact ⟨s2, b2, by simp [runOps, h1, g1], g2.trans h3⟩

/-- A `FixedSizeBuffer` is a queue: under every history of operations and with every source, what it
holds is what the source has handed over without the items consumed, which came first. No operation
panics. The capacity does not change and is never exceeded. -/
theorem C44_fifo [DataSource S I] [HonestSource S I] (chk : Bool) (size : Nat) (b : FixedSizeBuffer I)
    (hb : FixedSizeBuffer.withSize size = .ok b) (ops : List BufOp) (s : S)
    (hl : Legal chk ops (s, b)) :
    ∃ s' b' delivered, runOps chk ops (s, b) = .ok (s', b') ∧ Reads s delivered s' ∧
      consumed ops ≤ delivered.length ∧
      Buffer.deref b' = .ok (delivered.drop (consumed ops)) ∧
      Buffer.len chk b' = .ok (delivered.length - consumed ops) ∧
      Buffer.capacity b' = size ∧ delivered.length - consumed ops ≤ size := by
  obtain ⟨hi, hv, hc⟩ := withSize_inv hb
  obtain ⟨s1, b1, hr, hcap⟩ := fixed_runOps chk ops s b hi hl
  rcases runOps_inv chk ops s b hi hl with hp | ⟨s', b', xs, h1, h2, h3, h4, h5, _⟩
  · rw [hr] at hp; cases hp
  · rw [hr] at h1
    cases h1
    rw [hv, List.nil_append] at h4 h5
    have e : (LawfulBuffer.view b1).length = xs.length - consumed ops := by
      rw [h5, List.length_drop]
    refine ⟨s1, b1, xs, hr, h3, h4, ?_, ?_, hcap.trans hc, ?_⟩
    · rw [LawfulBuffer.deref h2, h5]
    · rw [LawfulBuffer.len chk h2, e]
    · rw [← e, ← hc, ← hcap]
      have := FixedSizeBuffer.data_eq h2
      have h6 : b1.data.length = b1.populated := h2.length
      have h7 := h2.populated_le
      have h8 : (LawfulBuffer.view b1).length ≤ b1.data.length := by
        show (b1.data.drop b1.used).length ≤ _
        rw [List.length_drop]; omega
      show _ ≤ b1.buffer.length
      omega

/-- In a debug build, consuming more than there is panics. -/
theorem C44_consume_over [DataSource S I] [HonestSource S I] (size : Nat) (b : FixedSizeBuffer I)
    (hb : FixedSizeBuffer.withSize size = .ok b) (ops : List BufOp) (s s' : S) (b' : FixedSizeBuffer I)
    (hl : Legal true ops (s, b)) (hr : runOps true ops (s, b) = .ok (s', b')) (l n : Nat)
    (hlen : Buffer.len true b' = .ok l) (hn : l < n) : Buffer.consume true n b' = .panic := by
  obtain ⟨hi, hv, hc⟩ := withSize_inv hb
  rcases runOps_inv true ops s b hi hl with hp | ⟨s', b', xs, h1, h2, h3, h4, h5, _⟩
  · rw [hr] at hp; cases hp
  · rw [hr] at h1
    cases h1
    rw [LawfulBuffer.len true h2] at hlen
    cases hlen
    exact LawfulBuffer.consume_over h2 hn

/-- Three items arrive in two pieces, one is consumed, space is made, more is read. -/
def exampleScript : Script Nat := ⟨[.data 1 [2], .err ⟨5⟩, .data 3 [], .data 4 [5, 6]]⟩

def exampleOps : List BufOp :=
  [.fill, .consume 1, .fill, .fill, .requestSpace 2, .fill, .consume 2]

def exampleFixed : FixedSizeBuffer Nat := ⟨List.replicate 3 none, 0, 0⟩

theorem exampleOps_legal : Legal true exampleOps (exampleScript, exampleFixed) :=
  legal_of_check rfl

example : ∃ s' b', runOps true exampleOps (exampleScript, exampleFixed) = .ok (s', b') ∧
    Buffer.deref b' = .ok [4] ∧ s'.rem = [5, 6] := ⟨_, _, rfl, rfl, rfl⟩

example : ∃ s' b' delivered, runOps true exampleOps (exampleScript, exampleFixed) = .ok (s', b') ∧
    Reads exampleScript delivered s' ∧ consumed exampleOps ≤ delivered.length ∧
      Buffer.deref b' = .ok (delivered.drop (consumed exampleOps)) ∧
      Buffer.len true b' = .ok (delivered.length - consumed exampleOps) ∧
      Buffer.capacity b' = 3 ∧ delivered.length - consumed exampleOps ≤ 3 :=
  C44_fifo true 3 exampleFixed rfl exampleOps exampleScript exampleOps_legal

/-! ### C45 -/

/-- A `GrowingBuffer` is a queue as well, with every allocator and every limit. An operation may panic
(see `C45_panic`). The capacity never shrinks. -/
theorem C45_fifo [DataSource S I] [HonestSource S I] (chk : Bool) (extra : Nat → Nat) (limit : Nat)
    (ops : List BufOp) (s s' : S) (b' : GrowingBuffer I)
    (hl : Legal chk ops (s, GrowingBuffer.withLimit extra limit))
    (hr : runOps chk ops (s, GrowingBuffer.withLimit extra limit) = .ok (s', b')) :
    ∃ delivered, Reads s delivered s' ∧ consumed ops ≤ delivered.length ∧
      Buffer.deref b' = .ok (delivered.drop (consumed ops)) ∧
      Buffer.len chk b' = .ok (delivered.length - consumed ops) := by
  have hi : LawfulBuffer.Inv (GrowingBuffer.withLimit extra limit : GrowingBuffer I) :=
    GrowingBuffer.withLimit_inv extra limit
  rcases runOps_inv chk ops s _ hi hl with hp | ⟨s', b', xs, h1, h2, h3, h4, h5, _⟩
  · rw [hr] at hp; cases hp
  · rw [hr] at h1
    cases h1
    have hv : LawfulBuffer.view (GrowingBuffer.withLimit extra limit : GrowingBuffer I) = [] := rfl
    rw [hv, List.nil_append] at h4 h5
    refine ⟨xs, h3, h4, ?_, ?_⟩
    · rw [LawfulBuffer.deref h2, h5]
    · rw [LawfulBuffer.len chk h2, h5, List.length_drop]

/-- States of a `GrowingBuffer` which can be reached. -/
def GReach (chk : Bool) (b : GrowingBuffer I) : Prop :=
  ∃ (S : Type) (_ : DataSource S I) (_ : HonestSource S I) (extra : Nat → Nat) (limit : Nat)
    (ops : List BufOp) (s s' : S),
    Legal chk ops (s, (GrowingBuffer.withLimit extra limit : GrowingBuffer I)) ∧
    runOps chk ops (s, (GrowingBuffer.withLimit extra limit : GrowingBuffer I)) = .ok (s', b)

theorem GReach.inv {chk : Bool} {b : GrowingBuffer I} (h : GReach chk b) : b.Inv := by
  obtain ⟨S, _, _, extra, limit, ops, s, s', hl, hr⟩ := h
  rcases runOps_inv chk ops s _ (GrowingBuffer.withLimit_inv extra limit) hl with
    hp | ⟨s', b', xs, h1, h2, _⟩
  · rw [hr] at hp; cases hp
  · rw [hr] at h1; cases h1; exact h2

/-- The capacity never shrinks. -/
theorem C45_capacity [DataSource S I] [HonestSource S I] (chk : Bool) (b b' : GrowingBuffer I)
    (hb : GReach chk b) (ops : List BufOp) (s s' : S) (hl : Legal chk ops (s, b))
    (hr : runOps chk ops (s, b) = .ok (s', b')) : Buffer.capacity b ≤ Buffer.capacity b' := by
  rcases runOps_inv chk ops s b hb.inv hl with hp | ⟨_, _, xs, h1, _, _, _, _, h6⟩
  · rw [hr] at hp; cases hp
  · rw [hr] at h1; cases h1; exact h6

/-- `request_space` on a buffer which has exceeded its limit does nothing. -/
theorem over_limit {b : GrowingBuffer I} (h : b.Inv) (hlim : b.limit ≠ 0)
    (hc : b.limit < Buffer.capacity b) (chk : Bool) (n : Nat) :
    Buffer.requestSpace chk n b = .ok b := by
  have e : Buffer.capacity b = b.cap := h.2.symm
  show GrowingBuffer.requestSpace chk n b = .ok b
  rw [GrowingBuffer.requestSpace_eq h, if_pos ⟨hlim, by omega⟩]

theorem limit_run [DataSource S I] [HonestSource S I] (chk : Bool) (op : BufOp) (s s' : S)
    (b b' : GrowingBuffer I) (h : b.Inv) (hr : op.run chk (s, b) = .ok (s', b')) :
    b'.limit = b.limit := by
  cases op with
  | fill =>
    obtain ⟨c, h1, _, _, _, _, h6⟩ := GrowingBuffer.fill_inv h chk s
    have e : Buffer.fill chk s b = _ := h1
    simp only [BufOp.run, e, Res.bind_ok, Res.ok.injEq, Prod.mk.injEq] at hr
    rw [← hr.2]; exact h6
  | requestSpace n =>
    rcases GrowingBuffer.requestSpace_inv h chk n with hp | ⟨c, h1, _, _, _, h6⟩
    · have e : Buffer.requestSpace chk n b = _ := hp
      simp [BufOp.run, e] at hr
    · have e : Buffer.requestSpace chk n b = _ := h1
      simp only [BufOp.run, e, Res.bind_ok, Res.ok.injEq, Prod.mk.injEq] at hr
      rw [← hr.2]; exact h6
  | consume n =>
    have e : Buffer.consume chk n b = GrowingBuffer.consume chk n b := rfl
    simp only [BufOp.run, e, GrowingBuffer.consume, bind_assoc] at hr
    cases h1 : debugAssert chk (b.used + n ≤ b.populated) with
    | ok u =>
      rw [h1] at hr
      cases h2 : uaddB chk b.used n with
      | ok u =>
        rw [h2] at hr
        simp only [Res.bind_ok, Res.ok.injEq, Prod.mk.injEq] at hr
        rw [← hr.2]
      | _ => rw [h2] at hr; simp at hr
    | _ => rw [h1] at hr; simp at hr

/-- Once the capacity exceeds the limit, it does not grow any more. -/
theorem C45_limit [DataSource S I] [HonestSource S I] (chk : Bool) (b : GrowingBuffer I)
    (hb : GReach chk b) (hlim : b.limit ≠ 0) (hc : b.limit < Buffer.capacity b) :
    ∀ (ops : List BufOp) (s s' : S) (b' : GrowingBuffer I), Legal chk ops (s, b) →
      runOps chk ops (s, b) = .ok (s', b') → Buffer.capacity b' = Buffer.capacity b := by
  have hi : b.Inv := hb.inv
  clear hb
  intro ops
  induction ops generalizing b with
  | nil => intro s s' b' _ hr; cases hr; rfl
  | cons op ops ih =>
    intro s s' b' hl hr
    rcases BufOp.run_inv chk op s b hi (legal_head (B := GrowingBuffer I) hi hl) with
      ⟨_, hp⟩ | ⟨s1, b1, xs, h1, h2, _, _, _, _, h7⟩
    · simp [runOps, hp] at hr
    · have e : Buffer.capacity b1 = Buffer.capacity b := by
        cases op with
        | requestSpace n =>
          simp only [BufOp.run, over_limit hi hlim hc, Res.bind_ok, Res.ok.injEq, Prod.mk.injEq] at h1
          rw [← h1.2]
        | _ => exact h7 (by intro n h; cases h)
      simp only [runOps, h1, Res.bind_ok] at hr
      have hm := limit_run chk op s s1 b b1 hi h1
      have := ih b1 (by rw [hm]; exact hlim) (by rw [hm, e]; exact hc) h2 s1 s' b' (hl.2 _ h1) hr
      exact this.trans e

/-- No operation panics, unless `request_space` is asked for an astronomic size: the items buffered
and those asked for must not exceed 2^62. -/
theorem C45_panic [DataSource S I] [HonestSource S I] (chk : Bool) (b : GrowingBuffer I)
    (hb : GReach chk b) (op : BufOp) (s : S) (hl : Legal chk [op] (s, b))
    (hp : op.run chk (s, b) = .panic) :
    ∃ n l, op = .requestSpace n ∧ Buffer.len chk b = .ok l ∧ 2 ^ 62 < l + n := by
  have hi := hb.inv
  rcases BufOp.run_inv chk op s b hi (legal_head (B := GrowingBuffer I) hi hl) with
    ⟨⟨n, h1, h2⟩, _⟩ | ⟨s1, b1, xs, h1, h2, _, _, _, _, h7⟩
  · refine ⟨n, _, h1, LawfulBuffer.len (B := GrowingBuffer I) chk hi, ?_⟩
    apply Nat.lt_of_not_le
    intro hle
    have e1 : usizeMax = 2 ^ 64 - 1 := rfl
    have e2 : isizeMax = 2 ^ 63 - 1 := rfl
    have hv : LawfulBuffer.view b = b.data.drop b.used := rfl
    rw [hv] at hle
    have e : Buffer.requestSpace chk n b = GrowingBuffer.requestSpace chk n b := rfl
    rw [e, GrowingBuffer.requestSpace_eq hi] at h2
    split at h2
    · cases h2
    · rw [uaddB_ok (by omega), Res.bind_ok] at h2
      have hc := hi.2
      split at h2
      · rw [if_pos (by omega)] at h2
        obtain ⟨g1, _, _⟩ := GrowingBuffer.grow_inv hi (n := n) (by omega)
        rw [GrowingBuffer.shift_eq g1] at h2
        cases h2
      · rw [GrowingBuffer.shift_eq hi] at h2
        cases h2
  · rw [h1] at hp; cases hp

/-- A growing buffer with limit 3, and an allocator which rounds up by two cells. -/
def exampleGrowing : GrowingBuffer Nat := GrowingBuffer.withLimit (fun _ => 2) 3

def exampleGOps : List BufOp := [.requestSpace 2, .fill, .consume 1, .fill, .fill]

theorem exampleGOps_legal : Legal true exampleGOps (exampleScript, exampleGrowing) :=
  legal_of_check rfl

example : ∃ s' b', runOps true exampleGOps (exampleScript, exampleGrowing) = .ok (s', b') ∧
    Buffer.deref b' = .ok [2, 3] ∧ Buffer.capacity b' = 4 ∧ s'.rem = [4, 5, 6] ∧
    GReach true b' :=
  ⟨_, _, rfl, rfl, rfl, rfl, Script Nat, _, inferInstance, _, _, exampleGOps, exampleScript, _,
    exampleGOps_legal, rfl⟩

/-! ### C46 -/

/-- In a debug build no history whatsoever, legal or not, executes undefined behaviour. -/
theorem C46_debug [DataSource S I] [HonestSource S I] [Buffer B I] [LawfulBuffer B I] :
    ∀ (ops : List BufOp) (s : S) (b : B), LawfulBuffer.Inv b →
      runOps true ops (s, b) ≠ .ub ∧
      ∀ s' b', runOps true ops (s, b) = .ok (s', b') → ∃ v, Buffer.deref b' = .ok v := by
  intro ops
  induction ops with
  | nil =>
    intro s b h
    refine ⟨by simp [runOps], fun s' b' hr => ?_⟩
    cases hr
    exact ⟨_, LawfulBuffer.deref h⟩
  | cons op ops ih =>
    intro s b h
    by_cases hl : ∀ n, op = .consume n → n ≤ (LawfulBuffer.view b).length
    · rcases BufOp.run_inv true op s b h hl with ⟨_, hp⟩ | ⟨s1, b1, xs, h1, h2, _⟩
      · simp [runOps, hp]
      · simp only [runOps, h1, Res.bind_ok]
        exact ih s1 b1 h2
    · cases op with
      | consume n =>
        have : (LawfulBuffer.view b).length < n := by
          apply Nat.lt_of_not_le
          intro hle
          apply hl
          intro m hm
          cases hm
          exact hle
        have := LawfulBuffer.consume_over h this
        simp [runOps, BufOp.run, this]
      | _ => exact absurd (by intro n hn; cases hn) hl

/-- In either build no legal history does. -/
theorem C46_legal [DataSource S I] [HonestSource S I] [Buffer B I] [LawfulBuffer B I] (chk : Bool)
    (ops : List BufOp) (s : S) (b : B) (h : LawfulBuffer.Inv b) (hl : Legal chk ops (s, b)) :
    runOps chk ops (s, b) ≠ .ub ∧
    ∀ s' b', runOps chk ops (s, b) = .ok (s', b') → ∃ v, Buffer.deref b' = .ok v := by
  rcases runOps_inv chk ops s b h hl with hp | ⟨s1, b1, xs, h1, h2, _⟩
  · rw [hp]; simp
  · rw [h1]
    refine ⟨by simp, fun s' b' hr => ?_⟩
    cases hr
    exact ⟨_, LawfulBuffer.deref h2⟩

/-- Both kinds of buffers start in a state to which the above applies. -/
theorem C46_start :
    (∀ (size : Nat) (b : FixedSizeBuffer I), FixedSizeBuffer.withSize size = .ok b → LawfulBuffer.Inv b) ∧
    (∀ (extra : Nat → Nat) (limit : Nat),
      LawfulBuffer.Inv (GrowingBuffer.withLimit extra limit : GrowingBuffer I)) :=
  ⟨fun _ _ h => (withSize_inv h).1, GrowingBuffer.withLimit_inv⟩

/-- What remains of the invariant of a `FixedSizeBuffer` if `consume` may be called with anything. -/
def FixedSafe (b : FixedSizeBuffer I) : Prop :=
  ∃ data : List I, b.buffer.take b.populated = data.map some ∧ data.length = b.populated ∧
    b.buffer.length ≤ isizeMax

theorem FixedSafe.mem {b : FixedSizeBuffer I} (h : FixedSafe b) :
    ∃ data : List I, MemInv b.buffer b.populated 0 data := by
  obtain ⟨data, h1, h2, h3⟩ := h
  exact ⟨data, Nat.zero_le _, h1, h2, h3⟩

theorem FixedSafe.memUsed {b : FixedSizeBuffer I} (h : FixedSafe b) (hu : b.used ≤ b.populated) :
    b.Inv := by
  obtain ⟨data, h1, h2, h3⟩ := h
  exact (FixedSizeBuffer.inv_of (data := data) ⟨hu, h1, h2, h3⟩).1

theorem FixedSafe.of_inv {b : FixedSizeBuffer I} (h : b.Inv) : FixedSafe b :=
  ⟨b.data, h.init, h.length, h.size⟩

theorem FixedSafe.run [DataSource S I] [HonestSource S I] (chk : Bool) (op : BufOp) (s : S)
    (b : FixedSizeBuffer I) (h : FixedSafe b) :
    op.run chk (s, b) = .panic ∨ ∃ s' b', op.run chk (s, b) = .ok (s', b') ∧ FixedSafe b' := by
  cases op with
  | fill =>
    right
    obtain ⟨data, hm⟩ := h.mem
    obtain ⟨hi, _⟩ := FixedSizeBuffer.inv_of (b := ⟨b.buffer, b.populated, 0⟩) hm
    obtain ⟨b', h1, h2, _⟩ := FixedSizeBuffer.fill_inv hi chk s
    have : FixedSizeBuffer.fill chk s b =
        (FixedSizeBuffer.fill chk s ⟨b.buffer, b.populated, 0⟩ >>= fun x =>
          .ok (x.1, x.2.1, { x.2.2 with used := b.used })) := by
      simp only [FixedSizeBuffer.fill]
      split
      · split
        · rfl
        · simp only [bind_assoc, Res.bind_ok]
      · rfl
    refine ⟨(DataSource.read s (b.buffer.length - b.populated)).2, { b' with used := b.used }, ?_, ?_⟩
    · have e : Buffer.fill chk s b = FixedSizeBuffer.fill chk s b := rfl
      simp only [BufOp.run, e, this, h1, Res.bind_ok]
    · have := FixedSafe.of_inv h2
      obtain ⟨d, g1, g2, g3⟩ := this
      exact ⟨d, g1, g2, g3⟩
  | requestSpace n =>
    by_cases hu : b.used ≤ b.populated
    · obtain ⟨b', h1, h2, _⟩ := FixedSizeBuffer.requestSpace_inv (h.memUsed hu) chk n
      have e : Buffer.requestSpace chk n b = _ := h1
      exact .inr ⟨s, b', by simp [BufOp.run, e], .of_inv h2⟩
    · left
      have e : Buffer.requestSpace chk n b = FixedSizeBuffer.requestSpace chk n b := rfl
      simp [BufOp.run, e, FixedSizeBuffer.requestSpace, assert, hu]
  | consume n =>
    have e : Buffer.consume chk n b = FixedSizeBuffer.consume chk n b := rfl
    simp only [BufOp.run, e, FixedSizeBuffer.consume, bind_assoc, debugAssert, uaddB]
    split
    · exact .inl rfl
    · simp only [Res.bind_ok]
      split
      · exact .inr ⟨_, _, rfl, h⟩
      · split
        · exact .inl rfl
        · exact .inr ⟨_, _, rfl, h⟩

/-- A `FixedSizeBuffer` is memory safe in either build, whatever `consume` is called with. -/
theorem C46_fixed [DataSource S I] [HonestSource S I] (chk : Bool) (size : Nat) (b : FixedSizeBuffer I)
    (hb : FixedSizeBuffer.withSize size = .ok b) (ops : List BufOp) (s : S) :
    runOps chk ops (s, b) ≠ .ub ∧
    ∀ s' b', runOps chk ops (s, b) = .ok (s', b') → Buffer.deref b' ≠ .ub := by
  have h : FixedSafe b := .of_inv (withSize_inv hb).1
  clear hb
  induction ops generalizing s b with
  | nil =>
    refine ⟨by simp [runOps], fun s' b' hr => ?_⟩
    cases hr
    have e : Buffer.deref b = subslice b.buffer b.used b.populated := rfl
    rw [e]
    by_cases hu : b.used ≤ b.populated
    · rw [MemInv.deref (h.memUsed hu)]; simp
    · simp [subslice, hu]
  | cons op ops ih =>
    rcases FixedSafe.run chk op s b h with hp | ⟨s1, b1, h1, h2⟩
    · simp [runOps, hp]
    · simp only [runOps, h1, Res.bind_ok]
      exact ih b1 s1 h2

/-! ### C47 -/

/-- After `request_space(n)` an unlimited `GrowingBuffer` offers at least `n` cells to the source. -/
theorem C47_growing (chk : Bool) (b : GrowingBuffer I) (hb : GReach chk b) (hlim : b.limit = 0)
    (n l : Nat) (hl : Buffer.len chk b = .ok l) (hn : l + n ≤ 2 ^ 62) :
    ∃ b' k, Buffer.requestSpace chk n b = .ok b' ∧ n ≤ k ∧
      ∀ (S : Type) [DataSource S I] [HonestSource S I] (s : S), ∃ b'', Buffer.fill chk s b' =
        .ok ((DataSource.read s k).1.result, (DataSource.read s k).2, b'') := by
  have hi := hb.inv
  have e := LawfulBuffer.len (B := GrowingBuffer I) chk hi
  rw [e] at hl
  cases hl
  obtain ⟨b', h1, h2⟩ := GrowingBuffer.requestSpace_fits hi hlim chk n hn
  rcases GrowingBuffer.requestSpace_inv hi chk n with hp | ⟨c, h3, h4, _⟩
  · rw [h1] at hp; cases hp
  · rw [h1] at h3
    cases h3
    refine ⟨b', _, h1, h2, fun S _ _ s => ?_⟩
    obtain ⟨b'', g, _⟩ := GrowingBuffer.fill_inv h4 chk s
    exact ⟨b'', g⟩

/-- After `request_space(n)` a `FixedSizeBuffer` offers at least `n` cells to the source, provided
that so many fit behind what it holds. -/
theorem C47_fixed [DataSource S I] [HonestSource S I] (chk : Bool) (size : Nat)
    (b0 b : FixedSizeBuffer I) (hb : FixedSizeBuffer.withSize size = .ok b0) (ops : List BufOp)
    (s0 s1 : S) (hleg : Legal chk ops (s0, b0)) (hr : runOps chk ops (s0, b0) = .ok (s1, b))
    (n l : Nat) (hl : Buffer.len chk b = .ok l) (hn : l + n ≤ size) :
    ∃ b' k, Buffer.requestSpace chk n b = .ok b' ∧ n ≤ k ∧
      ∀ (S : Type) [DataSource S I] [HonestSource S I] (s : S), ∃ b'', Buffer.fill chk s b' =
        .ok ((DataSource.read s k).1.result, (DataSource.read s k).2, b'') := by
  obtain ⟨hi0, _, hc⟩ := withSize_inv hb
  have hi : b.Inv := by
    rcases runOps_inv chk ops s0 b0 hi0 hleg with hp | ⟨_, _, _, h1, h2, _⟩
    · rw [hr] at hp; cases hp
    · rw [hr] at h1; cases h1; exact h2
  have hcap : Buffer.capacity b = size := by
    obtain ⟨_, _, h1, h2⟩ := fixed_runOps chk ops s0 b0 hi0 hleg
    rw [hr] at h1; cases h1; exact h2.trans hc
  have e := LawfulBuffer.len (B := FixedSizeBuffer I) chk hi
  rw [e] at hl
  cases hl
  obtain ⟨b', h1, h2, _, h4, h5⟩ := FixedSizeBuffer.requestSpace_inv hi chk n
  have hcap' : b.buffer.length = size := hcap
  refine ⟨b', _, h1, h5 (by rw [hcap']; exact hn), fun S _ _ s => ?_⟩
  obtain ⟨b'', g, _⟩ := FixedSizeBuffer.fill_inv h2 chk s
  exact ⟨b'', g⟩

/-- A `GrowingBuffer` over its limit does nothing on `request_space`, even if everything it held has
been consumed: no matter how much is asked for, the source is offered the same cells as before. -/
theorem C47_limited (chk : Bool) (b : GrowingBuffer I) (hb : GReach chk b) (hlim : b.limit ≠ 0)
    (hc : b.limit < Buffer.capacity b) (n : Nat) : Buffer.requestSpace chk n b = .ok b :=
  over_limit hb.inv hlim hc chk n

/-- A witness: the buffer is empty, has four cells, and nothing can be read into it. -/
theorem C47_limited_witness : ∃ b : GrowingBuffer Nat, GReach true b ∧ b.limit = 3 ∧
    Buffer.capacity b = 4 ∧ Buffer.deref b = .ok [] ∧ Buffer.requestSpace true 1 b = .ok b ∧
    ∀ (S : Type) [DataSource S Nat] (s : S), ∃ b', Buffer.fill true s b =
        match (DataSource.read s 0).1.result with
        | .ok n => if n = 0 then .ok (.ok 0, (DataSource.read s 0).2, b') else .panic
        | .error e => .ok (.error e, (DataSource.read s 0).2, b') := by
  have hr : ∃ s' b', runOps true [.requestSpace 2, .fill, .fill, .consume 4]
      ((⟨[.data 1 [2, 3], .data 4 [5]]⟩ : Script Nat), exampleGrowing) = .ok (s', b') ∧
      b' = ⟨[some 1, some 2, some 3, some 4], 4, 4, 3, 4, fun _ => 2, 1⟩ := ⟨_, _, rfl, rfl⟩
  obtain ⟨s', b', hr, rfl⟩ := hr
  refine ⟨_, ⟨Script Nat, _, inferInstance, _, _, _, _, _, legal_of_check rfl, hr⟩, rfl, rfl, rfl, rfl, fun S _ s => ?_⟩
  refine ⟨⟨[some 1, some 2, some 3, some 4], 4, 4, 3, 4, fun _ => 2, 1⟩, ?_⟩
  show GrowingBuffer.fill true s _ = _
  simp only [GrowingBuffer.fill, List.length_cons, List.length_nil, Nat.le_refl, if_true, Nat.sub_self]
  have : ∀ ws : List (Option Nat), overlay [] ws = [] := by intro ws; simp [overlay]
  split
  · rename_i e he
    rw [he]
    simp [this]
  · rename_i n hn
    rw [hn]
    cases n with
    | zero => simp [this, debugAssert, uaddB, show 4 ≤ usizeMax by decide]
    | succ n => simp [this, debugAssert]

/-! ### C64: a source which breaks its contract -/

/-- A safe source which claims an item but does not write it. -/
structure Liar where
instance : DataSource Liar Nat := ⟨fun s k => (⟨[], .ok (min 1 k)⟩, s)⟩

/-- Nothing stands between the contract and undefined behaviour: with a source which claims items it
has not written, both buffers expose uninitialised memory after a single `fill`. -/
theorem C64_uninitialised (chk : Bool) :
    (∃ b s b', FixedSizeBuffer.withSize (I := Nat) 8 = .ok b ∧
      runOps chk [.fill] (Liar.mk, b) = .ok (s, b') ∧ Buffer.deref b' = .ub) ∧
    (∃ s b', runOps chk [.requestSpace 8, .fill]
        (Liar.mk, (GrowingBuffer.new (fun _ => 0) : GrowingBuffer Nat)) = .ok (s, b') ∧
      Buffer.deref b' = .ub) := by
  cases chk
  · exact ⟨⟨_, _, _, rfl, rfl, rfl⟩, _, _, rfl, rfl⟩
  · exact ⟨⟨_, _, _, rfl, rfl, rfl⟩, _, _, rfl, rfl⟩

/-- Claiming more items than fit is caught by an assertion, but in debug builds only: -/
theorem C64_too_many_debug [DataSource S I] (s : S) (b : FixedSizeBuffer I)
    (hb : LawfulBuffer.Inv b) (n : Nat)
    (hn : (DataSource.read s (b.buffer.length - b.populated)).1.result = .ok n)
    (hbig : b.buffer.length - b.populated < n) : Buffer.fill true s b = .panic := by
  have h2 : b.populated ≤ b.buffer.length := MemInv.populated_le hb
  have hl := fun ws => (MemInv.scribbled hb ws).2
  show FixedSizeBuffer.fill true s b = .panic
  unfold FixedSizeBuffer.fill
  rw [if_pos h2]
  dsimp only
  rw [hn]
  dsimp only
  rw [debugAssert_fail (by rw [hl]; simp; omega)]
  rfl

/-- A source which fills the slice and claims two items more. -/
structure Boaster where
instance : DataSource Boaster Nat := ⟨fun s k => (⟨List.replicate k (some 0), .ok (k + 2)⟩, s)⟩

/-- In a release build the buffer can then be made to copy from outside of its memory. -/
theorem C64_too_many_release :
    ∃ b, FixedSizeBuffer.withSize (I := Nat) 2 = .ok b ∧
      runOps false [.fill, .requestSpace usizeMax] (Boaster.mk, b) = .ub :=
  ⟨_, rfl, rfl⟩

/-! ### C65: consuming more than there is, in a release build -/

/-- A `GrowingBuffer` in a release build: calling `consume` with more than `len()` and then
`request_space`, both safe methods, makes it copy from outside of its memory. -/
theorem C65_growing : ∃ (ops : List BufOp) (s s' : Script Nat) (b' : GrowingBuffer Nat),
    runOps false ops (s, (GrowingBuffer.new (fun _ => 0) : GrowingBuffer Nat)) = .ok (s', b') ∧
    Legal false ops (s, (GrowingBuffer.new (fun _ => 0) : GrowingBuffer Nat)) ∧
    Buffer.deref b' = .ok [1] ∧
    runOps false [.consume 3, .requestSpace 2] (s', b') = .ub :=
  ⟨[.requestSpace 1, .fill], ⟨[.data 1 []]⟩, _, _, rfl, legal_of_check rfl, rfl, rfl⟩

/-- A `FixedSizeBuffer` in the same situation panics, as soon as it is looked at or asked for space. -/
theorem C65_fixed (b : FixedSizeBuffer I) (h : LawfulBuffer.Inv b) (l n : Nat)
    (hl : Buffer.len false b = .ok l) (hn : l < n) (hmax : n ≤ isizeMax) :
    ∃ b', Buffer.consume false n b = .ok b' ∧ Buffer.deref b' = .panic ∧
      ∀ chk m, Buffer.requestSpace chk m b' = .panic := by
  rw [LawfulBuffer.len false h] at hl
  cases hl
  have hlen : b.populated - b.used = (LawfulBuffer.view b).length := MemInv.len h
  have h1 : b.used ≤ b.populated := MemInv.used_le h
  have h2 : b.populated ≤ b.buffer.length := MemInv.populated_le h
  have h3 : b.buffer.length ≤ isizeMax := MemInv.size h
  have e1 : usizeMax = 2 ^ 64 - 1 := rfl
  have e2 : isizeMax = 2 ^ 63 - 1 := rfl
  refine ⟨{ b with used := b.used + n }, ?_, ?_, fun chk m => ?_⟩
  · show FixedSizeBuffer.consume false n b = _
    simp only [FixedSizeBuffer.consume, debugAssert, Bool.false_and, Bool.false_eq_true, if_false,
      Res.bind_ok]
    rw [uaddB_ok (by omega)]
    rfl
  · show subslice b.buffer (b.used + n) b.populated = .panic
    unfold subslice
    rw [if_neg (by omega)]
  · show FixedSizeBuffer.requestSpace chk m { b with used := b.used + n } = .panic
    have : ¬ (b.used + n ≤ b.populated) := by omega
    simp [FixedSizeBuffer.requestSpace, assert, this]

end Chomp.Props
