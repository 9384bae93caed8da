import Verif.Lemmas.Res
import Verif.Spec.Buffer

namespace Chomp

theorem uaddB_ok {chk : Bool} {a b : Nat} (h : a + b ≤ usizeMax) : uaddB chk a b = .ok (a + b) := by
  simp [uaddB, h]

theorem usubB_ok {chk : Bool} {a b : Nat} (h : b ≤ a) : usubB chk a b = .ok (a - b) := by
  simp [usubB, h]

theorem usubB_wrap {a b : Nat} (h : a < b) (hb : b ≤ usizeMax) :
    ∃ d, usubB false a b = .ok d ∧ d + b = a + 2 ^ 64 := by
  have e : usizeMax < 2 ^ 64 := by decide
  unfold usubB
  rw [if_neg (by omega), if_neg (by decide)]
  refine ⟨_, rfl, ?_⟩
  rw [Nat.mod_eq_of_lt (by omega)]
  omega

theorem uaddB_wrap {a b : Nat} (h : 2 ^ 64 ≤ a + b) (hb : a + b < 2 ^ 65) :
    ∃ c, uaddB false a b = .ok c ∧ c + 2 ^ 64 = a + b := by
  have e : usizeMax < 2 ^ 64 := by decide
  unfold uaddB
  rw [if_neg (by omega), if_neg (by decide)]
  refine ⟨_, rfl, ?_⟩
  rw [Nat.mod_eq_sub_mod h, Nat.mod_eq_of_lt (by omega)]
  omega

theorem debugAssert_ok {chk c : Bool} (h : c = true) : debugAssert chk c = .ok () := by
  simp [debugAssert, h]

theorem debugAssert_fail {c : Bool} (h : c = false) : debugAssert true c = .panic := by
  simp [debugAssert, h]

/-! ### memory -/

theorem expose_some (l : List I) : expose (l.map some) = .ok l := by
  induction l with
  | nil => rfl
  | cons x l ih => simp [expose, ih]

@[simp] theorem overlay_length (m ws : List (Option I)) : (overlay m ws).length = m.length := by
  induction m generalizing ws with
  | nil => simp [overlay]
  | cons c m ih =>
    cases ws with
    | nil => simp [overlay]
    | cons w ws => cases w <;> simp [overlay, ih]

theorem overlay_some (m : List (Option I)) (xs : List I) (ws : List (Option I))
    (h : xs.length ≤ m.length) :
    (overlay m (xs.map some ++ ws)).take xs.length = xs.map some := by
  induction xs generalizing m with
  | nil => simp
  | cons x xs ih =>
    cases m with
    | nil => simp at h
    | cons c m =>
      simp only [List.map_cons, List.cons_append, overlay, List.length_cons, List.take_succ_cons]
      rw [ih m (by simpa using h)]

theorem filterMap_id_some (xs : List I) : (xs.map some).filterMap id = xs := by
  induction xs with
  | nil => rfl
  | cons x xs ih => simp

theorem all_some_of_length : ∀ (ws : List (Option I)),
    (ws.filterMap id).length = ws.length → ws = (ws.filterMap id).map some := by
  intro ws
  induction ws with
  | nil => intro _; rfl
  | cons w ws ih =>
    intro h
    cases w with
    | none =>
      simp only [List.filterMap_cons_none, List.length_cons, id] at h
      have := List.length_filterMap_le (fun x : Option I => x) ws
      have e : ws.filterMap id = ws.filterMap (fun x => x) := rfl
      rw [e] at h
      omega
    | some x =>
      have e : (some x :: ws).filterMap id = x :: ws.filterMap id := rfl
      rw [e] at h ⊢
      simp only [List.length_cons, Nat.add_right_cancel_iff] at h
      rw [List.map_cons, ← ih h]

/-- What an honest source hands over is what it has written first. -/
theorem honest_writes {o : ReadOut I} {n : Nat} (hr : o.result = .ok n) (hl : o.items.length = n) :
    ∃ ws, o.writes = o.items.map some ++ ws := by
  have e : o.items = (o.writes.take n).filterMap id := by simp [ReadOut.items, hr]
  have hlen : (o.writes.take n).length = n := by
    have h1 := List.length_filterMap_le (id : Option I → Option I) (o.writes.take n)
    rw [← e, hl] at h1
    have h2 := List.length_take_le n o.writes
    omega
  have := all_some_of_length (o.writes.take n) (by rw [← e, hl, hlen])
  rw [← e] at this
  exact ⟨o.writes.drop n, by rw [← this, List.take_append_drop]⟩

/-! ### the memory of a buffer -/

/-- The first `populated` cells are initialised. -/
structure MemInv (mem : List (Option I)) (populated used : Nat) (data : List I) : Prop where
  used_le : used ≤ populated
  init : mem.take populated = data.map some
  length : data.length = populated
  size : mem.length ≤ isizeMax

namespace MemInv

variable {mem : List (Option I)} {populated used : Nat} {data : List I}

theorem populated_le (h : MemInv mem populated used data) : populated ≤ mem.length := by
  have h1 := congrArg List.length h.init
  have h2 := h.length
  simp only [List.length_take, List.length_map] at h1
  omega

theorem deref (h : MemInv mem populated used data) :
    subslice mem used populated = .ok (data.drop used) := by
  have h1 := h.used_le
  have h2 := h.populated_le
  unfold subslice
  rw [if_pos ⟨h1, h2⟩]
  have : (mem.drop used).take (populated - used) = (data.drop used).map some := by
    rw [← List.drop_take, h.init, List.map_drop]
  rw [this, expose_some]

theorem len (h : MemInv mem populated used data) : populated - used = (data.drop used).length := by
  rw [List.length_drop, h.length]

theorem copy (h : MemInv mem populated used data) :
    ptrCopy mem used (populated - used) =
      .ok ((mem.drop used).take (populated - used) ++ mem.drop (populated - used)) := by
  have h1 := h.used_le
  have h2 := h.populated_le
  unfold ptrCopy
  rw [if_pos (by omega)]

theorem copied (h : MemInv mem populated used data) :
    MemInv ((mem.drop used).take (populated - used) ++ mem.drop (populated - used))
      (populated - used) 0 (data.drop used) ∧
    ((mem.drop used).take (populated - used) ++ mem.drop (populated - used)).length = mem.length := by
  have h1 := h.used_le
  have h2 := h.populated_le
  have hl : ((mem.drop used).take (populated - used)).length = populated - used := by
    simp only [List.length_take, List.length_drop]; omega
  have hlen : ((mem.drop used).take (populated - used) ++ mem.drop (populated - used)).length =
      mem.length := by
    rw [List.length_append, hl, List.length_drop]; omega
  refine ⟨⟨Nat.zero_le _, ?_, h.len.symm, ?_⟩, hlen⟩
  · rw [List.take_append_of_le_length (by omega), List.take_of_length_le (by omega),
      ← List.drop_take, h.init, List.map_drop]
  · rw [hlen]; exact h.size

theorem consumed (h : MemInv mem populated used data) {n : Nat} (hn : used + n ≤ populated) :
    MemInv mem populated (used + n) data :=
  ⟨hn, h.init, h.length, h.size⟩

/-- Memory after the source has written. -/
theorem scribbled (h : MemInv mem populated used data) (ws : List (Option I)) :
    MemInv (mem.take populated ++ overlay (mem.drop populated) ws) populated used data ∧
    (mem.take populated ++ overlay (mem.drop populated) ws).length = mem.length := by
  have h2 := h.populated_le
  have hl : (mem.take populated).length = populated := by simp only [List.length_take]; omega
  have hlen : (mem.take populated ++ overlay (mem.drop populated) ws).length = mem.length := by
    rw [List.length_append, hl, overlay_length, List.length_drop]; omega
  refine ⟨⟨h.used_le, ?_, h.length, ?_⟩, hlen⟩
  · rw [List.take_append_of_le_length (by omega), List.take_of_length_le (by omega), h.init]
  · rw [hlen]; exact h.size

theorem filled (h : MemInv mem populated used data) (xs : List I) (ws : List (Option I))
    (hx : xs.length ≤ mem.length - populated) :
    MemInv (mem.take populated ++ overlay (mem.drop populated) (xs.map some ++ ws))
      (populated + xs.length) used (data ++ xs) := by
  have h2 := h.populated_le
  have h1 := h.used_le
  have hl : (mem.take populated).length = populated := by simp only [List.length_take]; omega
  refine ⟨by omega, ?_, by simp [h.length], ?_⟩
  · rw [List.take_append, hl, Nat.add_sub_cancel_left, overlay_some _ _ _ (by simpa using hx),
      List.take_of_length_le (by omega), h.init, List.map_append]
  · rw [(h.scribbled _).2]; exact h.size

theorem extend (h : MemInv mem populated used data) {n : Nat} (hn : mem.length ≤ n)
    (hs : n ≤ isizeMax) :
    MemInv (mem.take n ++ List.replicate (n - mem.length) none) populated used data ∧
    (mem.take n ++ List.replicate (n - mem.length) none).length = n := by
  have h2 := h.populated_le
  have e : mem.take n = mem := List.take_of_length_le hn
  have hlen : (mem.take n ++ List.replicate (n - mem.length) none).length = n := by
    rw [e, List.length_append, List.length_replicate]; omega
  refine ⟨⟨h.used_le, ?_, h.length, by omega⟩, hlen⟩
  rw [e, List.take_append_of_le_length h2, h.init]

end MemInv

theorem isize_lt : isizeMax < usizeMax := by decide

/-! ### FixedSizeBuffer -/

namespace FixedSizeBuffer

/-- what the populated cells hold -/
def data (b : FixedSizeBuffer I) : List I := (b.buffer.take b.populated).filterMap id

theorem data_eq {b : FixedSizeBuffer I} {data : List I}
    (h : MemInv b.buffer b.populated b.used data) : b.data = data := by
  unfold FixedSizeBuffer.data
  rw [h.init, filterMap_id_some]

/-- the invariant -/
def Inv (b : FixedSizeBuffer I) : Prop := MemInv b.buffer b.populated b.used b.data

theorem inv_of {b : FixedSizeBuffer I} {data : List I}
    (h : MemInv b.buffer b.populated b.used data) : b.Inv ∧ b.data = data := by
  have := data_eq h
  exact ⟨by unfold Inv; rw [this]; exact h, this⟩

theorem withSize_inv {n : Nat} (h : 0 < n) (hn : n ≤ isizeMax) :
    ∃ b : FixedSizeBuffer I, withSize n = .ok b ∧ b.Inv ∧ b.data.drop b.used = [] ∧
      b.buffer.length = n := by
  refine ⟨⟨List.replicate n none, 0, 0⟩, by simp [withSize, assert, h, hn], ?_, by simp [data],
    by simp⟩
  exact (inv_of (data := []) ⟨Nat.le_refl _, by simp, rfl, by simpa using hn⟩).1

theorem requestSpace_eq {b : FixedSizeBuffer I} (h : b.Inv) (chk : Bool) (n : Nat) :
    requestSpace chk n b = .ok (if b.buffer.length - b.populated < n then
      { buffer := (b.buffer.drop b.used).take (b.populated - b.used) ++
          b.buffer.drop (b.populated - b.used),
        populated := b.populated - b.used, used := 0 } else b) := by
  have h1 := h.used_le
  have h2 := h.populated_le
  unfold requestSpace
  simp only [assert, h1, decide_true, if_true, Res.bind_ok, usubB_ok h2]
  split
  · simp only [usubB_ok h1, Res.bind_ok, h.copy]
  · rfl

theorem requestSpace_inv {b : FixedSizeBuffer I} (h : b.Inv) (chk : Bool) (n : Nat) :
    ∃ b', requestSpace chk n b = .ok b' ∧ b'.Inv ∧ b'.data.drop b'.used = b.data.drop b.used ∧
      b'.buffer.length = b.buffer.length ∧
      ((b.data.drop b.used).length + n ≤ b.buffer.length → n ≤ b'.buffer.length - b'.populated) := by
  refine ⟨_, requestSpace_eq h chk n, ?_⟩
  have h1 := h.used_le
  have h2 := h.populated_le
  split
  · obtain ⟨hc, hl⟩ := h.copied
    obtain ⟨hi, hd⟩ := inv_of (b := ⟨_, _, 0⟩) hc
    refine ⟨hi, by rw [hd]; simp, hl, fun hn => ?_⟩
    rw [hl]
    dsimp only
    rw [← h.len] at hn
    omega
  · exact ⟨h, rfl, rfl, fun _ => by omega⟩

theorem fill_inv [DataSource S I] [HonestSource S I] {b : FixedSizeBuffer I} (h : b.Inv) (chk : Bool)
    (s : S) :
    ∃ b', fill chk s b = .ok ((DataSource.read s (b.buffer.length - b.populated)).1.result,
        (DataSource.read s (b.buffer.length - b.populated)).2, b') ∧ b'.Inv ∧
      b'.data.drop b'.used = b.data.drop b.used ++
        (DataSource.read s (b.buffer.length - b.populated)).1.items ∧
      b'.populated = b.populated +
        (DataSource.read s (b.buffer.length - b.populated)).1.items.length ∧
      b'.buffer.length = b.buffer.length := by
  have h1 := h.used_le
  have h2 := h.populated_le
  have h3 := h.size
  have h4 := isize_lt
  unfold fill
  rw [if_pos h2]
  match hr : DataSource.read s (b.buffer.length - b.populated) with
  | (out, s') =>
    dsimp only
    match hres : out.result with
    | .error e =>
      obtain ⟨hs, hl⟩ := h.scribbled out.writes
      obtain ⟨hi, hd⟩ := inv_of (b := ⟨_, b.populated, b.used⟩) hs
      refine ⟨⟨_, b.populated, b.used⟩, rfl, hi, ?_, ?_, hl⟩
      · rw [hd]; simp [ReadOut.items, hres]
      · simp [ReadOut.items, hres]
    | .ok n =>
      have hon := HonestSource.honest s (b.buffer.length - b.populated) n (by rw [hr]; exact hres)
      rw [hr] at hon
      dsimp only at hon
      obtain ⟨ws, hws⟩ := honest_writes hres hon.2
      have hf := h.filled out.items ws (by omega)
      have hl := (h.scribbled out.writes).2
      rw [← hws, hon.2] at hf
      obtain ⟨hi, hd⟩ := inv_of (b := ⟨_, b.populated + n, b.used⟩) hf
      refine ⟨⟨_, b.populated + n, b.used⟩, ?_, hi, ?_, by rw [hon.2], hl⟩
      · dsimp only
        rw [debugAssert_ok (by rw [hl]; simp; omega)]
        rw [uaddB_ok (by omega)]
        rfl
      · rw [hd]
        dsimp only
        rw [List.drop_append_of_le_length (by rw [h.length]; exact h1)]

instance : LawfulBuffer (FixedSizeBuffer I) I where
  Inv := Inv
  view b := b.data.drop b.used
  room b := b.buffer.length - b.populated
  CanHold b t := t ≤ b.buffer.length
  canHold_le h1 h2 := Nat.le_trans h1 h2
  size := by
    intro b h
    have := isize_lt
    have := h.len
    have := h.used_le
    have := h.populated_le
    have := h.size
    omega
  deref := fun h => h.deref
  len := by
    intro b chk h
    rw [← h.len]
    exact usubB_ok h.used_le
  consume := by
    intro b n chk h hn
    rw [← h.len] at hn
    have h1 := h.used_le
    have h2 := h.populated_le
    have h3 := h.size
    have h4 := isize_lt
    obtain ⟨hi, hd⟩ := inv_of (b := ⟨b.buffer, b.populated, b.used + n⟩) (h.consumed (by omega))
    refine ⟨⟨b.buffer, b.populated, b.used + n⟩, ?_, hi, ?_, rfl, rfl, fun _ h => h⟩
    · show FixedSizeBuffer.consume chk n b = _
      unfold FixedSizeBuffer.consume
      rw [debugAssert_ok (by simp; omega), uaddB_ok (by omega)]
      rfl
    · rw [hd, List.drop_drop]
  consume_over := by
    intro b n h hn
    rw [← h.len] at hn
    show FixedSizeBuffer.consume true n b = _
    unfold FixedSizeBuffer.consume
    rw [debugAssert_fail (by simp; omega)]
    rfl
  request := by
    intro b chk n h
    obtain ⟨b', h1, h2, h3, h4, _⟩ := requestSpace_inv h chk n
    exact .inr ⟨b', h1, h2, h3, Nat.le_of_eq h4.symm, fun t ht => by rw [h4]; exact ht⟩
  request_fits := by
    intro b n chk h hn
    obtain ⟨b', h1, h2, h3, h4, h5⟩ := requestSpace_inv h chk n
    exact ⟨b', h1, h5 hn⟩
  fill := by
    intro S b _ _ chk s h
    obtain ⟨b', h1, h2, h3, h4, h5⟩ := fill_inv h chk s
    have := h2.populated_le
    exact ⟨b', h1, h2, h3, by omega, h5, fun t ht => by rw [h5]; exact ht⟩

end FixedSizeBuffer

/-! ### GrowingBuffer -/

namespace GrowingBuffer

/-- what the populated cells hold -/
def data (b : GrowingBuffer I) : List I := (b.buffer.take b.populated).filterMap id

/-- the invariant -/
def Inv (b : GrowingBuffer I) : Prop :=
  MemInv b.buffer b.populated b.used b.data ∧ b.cap = b.buffer.length

theorem inv_of {b : GrowingBuffer I} {data : List I}
    (h : MemInv b.buffer b.populated b.used data) (hc : b.cap = b.buffer.length) :
    b.Inv ∧ b.data = data := by
  have e : b.data = data := by
    unfold GrowingBuffer.data
    rw [h.init, filterMap_id_some]
  exact ⟨⟨by rw [e]; exact h, hc⟩, e⟩

theorem withLimit_inv (extra : Nat → Nat) (limit : Nat) :
    (withLimit extra limit : GrowingBuffer I).Inv :=
  (inv_of (data := []) ⟨Nat.le_refl _, rfl, rfl, Nat.zero_le _⟩ rfl).1

/-- Making space by moving the contents to the front. -/
def compact (b : GrowingBuffer I) : GrowingBuffer I :=
  { b with
    buffer := (b.buffer.drop b.used).take (b.populated - b.used) ++
      b.buffer.drop (b.populated - b.used),
    populated := b.populated - b.used, used := 0 }

/-- Making space by a larger allocation. -/
def grow (n : Nat) (b : GrowingBuffer I) : GrowingBuffer I :=
  let cap := min isizeMax (b.buffer.length + n + b.extra b.allocs)
  { b with
    buffer := b.buffer.take cap ++ List.replicate (cap - b.buffer.length) none,
    cap := cap, allocs := b.allocs + 1 }

theorem compact_inv {b : GrowingBuffer I} (h : b.Inv) :
    b.compact.Inv ∧ b.compact.data.drop b.compact.used = b.data.drop b.used ∧
      b.compact.buffer.length = b.buffer.length := by
  obtain ⟨hc, hl⟩ := h.1.copied
  obtain ⟨hi, hd⟩ := inv_of (b := b.compact) hc (h.2.trans hl.symm)
  exact ⟨hi, by rw [hd]; simp [compact], hl⟩

theorem grow_inv {b : GrowingBuffer I} (h : b.Inv) {n : Nat} (hn : b.buffer.length + n ≤ isizeMax) :
    (b.grow n).Inv ∧ (b.grow n).data.drop (b.grow n).used = b.data.drop b.used ∧
      b.buffer.length + n ≤ (b.grow n).buffer.length := by
  have hcap : b.buffer.length ≤ min isizeMax (b.buffer.length + n + b.extra b.allocs) := by omega
  obtain ⟨hc, hl⟩ := h.1.extend hcap (by omega)
  obtain ⟨hi, hd⟩ := inv_of (b := b.grow n) hc hl.symm
  refine ⟨hi, by rw [hd]; rfl, ?_⟩
  have : (b.grow n).buffer.length = min isizeMax (b.buffer.length + n + b.extra b.allocs) := hl
  omega

/-- The part of `request_space` behind the allocation. -/
def shift (chk : Bool) (items : Nat) (b : GrowingBuffer I) : Res (GrowingBuffer I) := do
  let free ← usubB chk b.buffer.length b.populated
  if free < items then
    let count ← usubB chk b.populated b.used
    let mem ← ptrCopy b.buffer b.used count
    let p ← usubB chk b.populated b.used
    .ok { b with buffer := mem, populated := p, used := 0 }
  else .ok b

theorem shift_eq {b : GrowingBuffer I} (h : b.Inv) (chk : Bool) (n : Nat) :
    shift chk n b = .ok (if b.buffer.length - b.populated < n then b.compact else b) := by
  have h1 := h.1.used_le
  have h2 := h.1.populated_le
  unfold shift
  simp only [usubB_ok h2, Res.bind_ok]
  split
  · simp only [usubB_ok h1, Res.bind_ok, h.1.copy]
    rfl
  · rfl

theorem shift_inv {b : GrowingBuffer I} (h : b.Inv) (chk : Bool) (n : Nat) :
    ∃ b', shift chk n b = .ok b' ∧ b'.Inv ∧ b'.data.drop b'.used = b.data.drop b.used ∧
      b'.buffer.length = b.buffer.length ∧ b'.limit = b.limit ∧
      ((b.data.drop b.used).length + n ≤ b.buffer.length → n ≤ b'.buffer.length - b'.populated) := by
  refine ⟨_, shift_eq h chk n, ?_⟩
  have h1 := h.1.used_le
  have h2 := h.1.populated_le
  split
  · obtain ⟨hi, hd, hl⟩ := compact_inv h
    refine ⟨hi, hd, hl, rfl, fun hn => ?_⟩
    rw [hl]
    rw [← h.1.len] at hn
    show n ≤ b.buffer.length - (b.populated - b.used)
    omega
  · exact ⟨h, rfl, rfl, rfl, fun _ => by omega⟩

theorem reserve_eq {b : GrowingBuffer I} (h : b.Inv) {n : Nat} (h0 : 0 < n) :
    (reserve n b >>= fun b => setLen b.cap b) =
      if b.buffer.length + n ≤ isizeMax then .ok (b.grow n) else .panic := by
  have hc := h.2
  unfold reserve
  rw [if_neg (by omega)]
  split
  · rw [Res.bind_ok]
    simp only [setLen, Nat.le_refl, if_true]
    rfl
  · rfl

/-- What `request_space` does, without arithmetic. `need` is `items + len`, wrapped in a release
build. -/
theorem requestSpace_eq {b : GrowingBuffer I} (h : b.Inv) (chk : Bool) (n : Nat) :
    requestSpace chk n b =
      if b.limit ≠ 0 ∧ b.cap > b.limit then .ok b
      else uaddB chk n (b.data.drop b.used).length >>= fun need =>
        if need > b.cap then
          if b.buffer.length + n ≤ isizeMax then shift chk n (b.grow n) else .panic
        else shift chk n b := by
  have h1 := h.1.used_le
  have h2 := h.1.populated_le
  have hl := h.1.len
  have h3 := h.1.size
  have h4 := isize_lt
  have hc := h.2
  unfold requestSpace
  split
  · rfl
  · have el : len chk b = .ok (b.data.drop b.used).length := by
      unfold len; rw [usubB_ok h1, hl]
    rw [el, Res.bind_ok]
    cases hn : uaddB chk n (b.data.drop b.used).length with
    | ok need =>
      simp only [Res.bind_ok]
      split
      · rename_i hneed
        have h0 : 0 < n := by
          apply Nat.pos_of_ne_zero
          rintro rfl
          rw [uaddB_ok (by omega)] at hn
          cases hn
          omega
        show (reserve n b >>= fun b => setLen b.cap b >>= shift chk n) = _
        rw [← bind_assoc, reserve_eq h h0]
        split <;> rfl
      · rfl
    | _ => rfl

theorem requestSpace_inv {b : GrowingBuffer I} (h : b.Inv) (chk : Bool) (n : Nat) :
    requestSpace chk n b = .panic ∨
    ∃ b', requestSpace chk n b = .ok b' ∧ b'.Inv ∧ b'.data.drop b'.used = b.data.drop b.used ∧
      b.buffer.length ≤ b'.buffer.length ∧ b'.limit = b.limit := by
  rw [requestSpace_eq h]
  split
  · exact .inr ⟨b, rfl, h, rfl, Nat.le_refl _, rfl⟩
  · have key : ∀ c : GrowingBuffer I, c.Inv → c.data.drop c.used = b.data.drop b.used →
        b.buffer.length ≤ c.buffer.length → c.limit = b.limit →
        ∃ b', shift chk n c = .ok b' ∧ b'.Inv ∧ b'.data.drop b'.used = b.data.drop b.used ∧
          b.buffer.length ≤ b'.buffer.length ∧ b'.limit = b.limit := by
      intro c h1 h2 h3 h4
      obtain ⟨b', e, hi, hd, hl, hm, _⟩ := shift_inv h1 chk n
      exact ⟨b', e, hi, hd.trans h2, by omega, hm.trans h4⟩
    have hn : uaddB chk n (b.data.drop b.used).length = .panic ∨
        ∃ x, uaddB chk n (b.data.drop b.used).length = .ok x := by
      unfold uaddB
      split
      · exact .inr ⟨_, rfl⟩
      · split
        · exact .inl rfl
        · exact .inr ⟨_, rfl⟩
    rcases hn with hn | ⟨x, hn⟩
    · rw [hn]; exact .inl rfl
    · rw [hn, Res.bind_ok]
      split
      · split
        · rename_i hs
          obtain ⟨h1, h2, h3⟩ := grow_inv h hs
          exact .inr (key _ h1 h2 (by omega) rfl)
        · exact .inl rfl
      · exact .inr (key _ h rfl (Nat.le_refl _) rfl)

/-- An unlimited buffer makes room, unless the sizes are astronomic. -/
theorem requestSpace_fits {b : GrowingBuffer I} (h : b.Inv) (hl : b.limit = 0) (chk : Bool) (n : Nat)
    (hn : (b.data.drop b.used).length + n ≤ 2 ^ 62) :
    ∃ b', requestSpace chk n b = .ok b' ∧ n ≤ b'.buffer.length - b'.populated := by
  have hc := h.2
  have e1 : usizeMax = 2 ^ 64 - 1 := rfl
  have e2 : isizeMax = 2 ^ 63 - 1 := rfl
  rw [requestSpace_eq h, if_neg (by simp [hl]), uaddB_ok (by omega), Res.bind_ok]
  split
  · rw [if_pos (by omega)]
    obtain ⟨h1, h2, h3⟩ := grow_inv h (n := n) (by omega)
    obtain ⟨b', e, _, _, _, _, hr⟩ := shift_inv h1 chk n
    refine ⟨b', e, hr ?_⟩
    rw [h2]
    have := h.1.len
    have := h.1.populated_le
    omega
  · obtain ⟨b', e, _, _, _, _, hr⟩ := shift_inv h chk n
    exact ⟨b', e, hr (by omega)⟩

theorem fill_inv [DataSource S I] [HonestSource S I] {b : GrowingBuffer I} (h : b.Inv) (chk : Bool)
    (s : S) :
    ∃ b', fill chk s b = .ok ((DataSource.read s (b.buffer.length - b.populated)).1.result,
        (DataSource.read s (b.buffer.length - b.populated)).2, b') ∧ b'.Inv ∧
      b'.data.drop b'.used = b.data.drop b.used ++
        (DataSource.read s (b.buffer.length - b.populated)).1.items ∧
      b'.populated = b.populated +
        (DataSource.read s (b.buffer.length - b.populated)).1.items.length ∧
      b'.buffer.length = b.buffer.length ∧ b'.limit = b.limit := by
  have h1 := h.1.used_le
  have h2 := h.1.populated_le
  have h3 := h.1.size
  have h4 := isize_lt
  have hc := h.2
  unfold fill
  rw [if_pos h2]
  match hr : DataSource.read s (b.buffer.length - b.populated) with
  | (out, s') =>
    dsimp only
    match hres : out.result with
    | .error e =>
      obtain ⟨hs, hl⟩ := h.1.scribbled out.writes
      obtain ⟨hi, hd⟩ := inv_of (b := { b with buffer := _ }) hs (by rw [hl]; exact hc)
      refine ⟨{ b with buffer := _ }, rfl, hi, ?_, ?_, hl, rfl⟩
      · rw [hd]; simp [ReadOut.items, hres]
      · simp [ReadOut.items, hres]
    | .ok n =>
      have hon := HonestSource.honest s (b.buffer.length - b.populated) n (by rw [hr]; exact hres)
      rw [hr] at hon
      dsimp only at hon
      obtain ⟨ws, hws⟩ := honest_writes hres hon.2
      have hf := h.1.filled out.items ws (by omega)
      have hl := (h.1.scribbled out.writes).2
      rw [← hws, hon.2] at hf
      obtain ⟨hi, hd⟩ := inv_of (b := { b with buffer := _, populated := b.populated + n }) hf
        (by rw [hl]; exact hc)
      refine ⟨{ b with buffer := _, populated := b.populated + n }, ?_, hi, ?_, by rw [hon.2], hl, rfl⟩
      · dsimp only
        rw [debugAssert_ok (by rw [hl]; simp; omega)]
        rw [uaddB_ok (by omega)]
        rfl
      · rw [hd]
        dsimp only
        rw [List.drop_append_of_le_length (by rw [h.1.length]; exact h1)]

instance : LawfulBuffer (GrowingBuffer I) I where
  Inv := Inv
  view b := b.data.drop b.used
  room b := b.buffer.length - b.populated
  CanHold b t := b.limit = 0 ∧ t ≤ 2 ^ 62
  canHold_le h1 h2 := ⟨h2.1, Nat.le_trans h1 h2.2⟩
  size := by
    intro b h
    have := isize_lt
    have := h.1.len
    have := h.1.used_le
    have := h.1.populated_le
    have := h.1.size
    omega
  deref := fun h => h.1.deref
  len := by
    intro b chk h
    rw [← h.1.len]
    exact usubB_ok h.1.used_le
  consume := by
    intro b n chk h hn
    rw [← h.1.len] at hn
    have h1 := h.1.used_le
    have h2 := h.1.populated_le
    have h3 := h.1.size
    have h4 := isize_lt
    obtain ⟨hi, hd⟩ := inv_of (b := { b with used := b.used + n }) (h.1.consumed (by omega)) h.2
    refine ⟨{ b with used := b.used + n }, ?_, hi, ?_, rfl, rfl, fun _ h => h⟩
    · show GrowingBuffer.consume chk n b = _
      unfold GrowingBuffer.consume
      rw [debugAssert_ok (by simp; omega), uaddB_ok (by omega)]
      rfl
    · rw [hd, List.drop_drop]
  consume_over := by
    intro b n h hn
    rw [← h.1.len] at hn
    show GrowingBuffer.consume true n b = _
    unfold GrowingBuffer.consume
    rw [debugAssert_fail (by simp; omega)]
    rfl
  request := by
    intro b chk n h
    rcases requestSpace_inv h chk n with e | ⟨b', h1, h2, h3, h4, h5⟩
    · exact .inl e
    · exact .inr ⟨b', h1, h2, h3, h4, fun t ht => ⟨h5.trans ht.1, ht.2⟩⟩
  request_fits := by
    intro b n chk h hn
    exact requestSpace_fits h hn.1 chk n hn.2
  fill := by
    intro S b _ _ chk s h
    obtain ⟨b', h1, h2, h3, h4, h5, h6⟩ := fill_inv h chk s
    have := h2.1.populated_le
    exact ⟨b', h1, h2, h3, by omega, h5, fun t ht => ⟨h6.trans ht.1, ht.2⟩⟩

end GrowingBuffer

end Chomp
