import Verif.Lemmas.Buffer
import Verif.Lemmas.Script
import Verif.Spec.Derived

namespace Chomp.Derived

open Spec

theorem _root_.Chomp.Res.bind_eq_ok {x : Res α} {f : α → Res β} {y : β} :
    (x >>= f) = .ok y ↔ ∃ a, x = .ok a ∧ f a = .ok y := by
  cases x with
  | ok a => simp
  | _ => constructor
         · intro h; cases h
         · rintro ⟨_, h, _⟩; cases h

theorem expose_eq_ok {l : List (Option I)} {xs : List I} : expose l = .ok xs ↔ l = xs.map some := by
  constructor
  · induction l generalizing xs with
    | nil => intro h; cases h; rfl
    | cons c l ih =>
      cases c with
      | none => intro h; cases h
      | some x =>
        intro h
        unfold expose at h
        cases hl : expose l with
        | ok ys =>
          rw [hl] at h
          cases h
          rw [ih hl]; rfl
        | _ => rw [hl] at h; cases h
  · rintro rfl; exact expose_some xs

theorem expose_cases (l : List (Option I)) :
    ((∀ c ∈ l, c ≠ none) ∧ ∃ xs, expose l = .ok xs ∧ l = xs.map some) ∨ (none ∈ l ∧ expose l = .ub) := by
  induction l with
  | nil => left; exact ⟨by simp, [], rfl, rfl⟩
  | cons c l ih =>
    cases c with
    | none => right; exact ⟨by simp, rfl⟩
    | some x =>
      rcases ih with ⟨h1, xs, h2, h3⟩ | ⟨h1, h2⟩
      · left
        refine ⟨?_, x :: xs, by unfold expose; rw [h2]; rfl, by rw [h3]; rfl⟩
        intro c hc
        cases hc with
        | head => simp
        | tail _ hc => exact h1 c hc
      · right
        exact ⟨List.mem_cons_of_mem _ h1, by unfold expose; rw [h2]; rfl⟩

theorem overlay_some_eq (l : List I) (ws : List (Option I)) :
    overlay (l.map some) ws = (written l ws).map some := by
  induction l generalizing ws with
  | nil => cases ws <;> rfl
  | cons x l ih =>
    cases ws with
    | nil => rfl
    | cons c ws =>
      cases c with
      | none => simp only [List.map_cons, overlay, written, ih]
      | some y => simp only [List.map_cons, overlay, written, ih]

theorem written_length (l : List I) (ws : List (Option I)) : (written l ws).length = l.length := by
  induction l generalizing ws with
  | nil => cases ws <;> rfl
  | cons x l ih =>
    cases ws with
    | nil => rfl
    | cons c ws => cases c <;> simp [written, ih]

/-- Writing to the contents. -/
theorem writeSlice_inv {mem : List (Option I)} {populated used : Nat} {data : List I}
    (h : MemInv mem populated used data) (ws : List (Option I)) :
    ∃ mem', writeSlice mem used populated ws = .ok mem' ∧
      MemInv mem' populated used (data.take used ++ written (data.drop used) ws) ∧
      mem'.length = mem.length ∧ mem'.drop populated = mem.drop populated := by
  have h1 := h.used_le
  have h2 := h.populated_le
  have hs : (mem.drop used).take (populated - used) = (data.drop used).map some := by
    rw [← List.drop_take, h.init, List.map_drop]
  have ht : mem.take used = (data.take used).map some := by
    have : mem.take used = (mem.take populated).take used := by
      rw [List.take_take, Nat.min_eq_left h1]
    rw [this, h.init, List.map_take]
  have hl : (data.take used ++ written (data.drop used) ws).length = populated := by
    rw [List.length_append, written_length, ← List.length_append, List.take_append_drop, h.length]
  have hpre : mem.take used ++ overlay ((mem.drop used).take (populated - used)) ws =
      (data.take used ++ written (data.drop used) ws).map some := by
    rw [hs, ht, overlay_some_eq, List.map_append]
  refine ⟨_, by unfold writeSlice; rw [h.deref]; rfl, ⟨h1, ?_, hl, ?_⟩, ?_, ?_⟩
  · rw [hpre, List.take_append_of_le_length (by rw [List.length_map, hl]; exact Nat.le_refl _),
      List.take_of_length_le (by rw [List.length_map, hl]; exact Nat.le_refl _)]
  · rw [hpre, List.length_append, List.length_map, hl, List.length_drop]
    have := h.size
    omega
  · rw [hpre, List.length_append, List.length_map, hl, List.length_drop]
    omega
  · rw [hpre, List.drop_append_of_le_length (by rw [List.length_map, hl]; exact Nat.le_refl _),
      List.drop_of_length_le (by rw [List.length_map, hl]; exact Nat.le_refl _), List.nil_append]

/-! ### comparison -/

theorem eqCells_true {eq : I → I → Bool} (heq : ∀ x y, eq x y = true → x = y) :
    ∀ {a b : List (Option I)}, a.length = b.length → eqCells eq a b = .ok true → a = b := by
  intro a
  induction a with
  | nil => intro b hl _; cases b with
    | nil => rfl
    | cons => simp at hl
  | cons c a ih =>
    intro b hl h
    cases b with
    | nil => simp at hl
    | cons d b =>
      cases c with
      | none => cases d <;> cases h
      | some x =>
        cases d with
        | none => cases h
        | some y =>
          unfold eqCells at h
          split at h
          · rename_i hxy
            rw [heq _ _ hxy, ih (by simpa using hl) h]
          · cases h

theorem eqCells_self {eq : I → I → Bool} (heq : ∀ x, eq x x = true) (l : List (Option I)) :
    (none ∈ l → eqCells eq l l = .ub) ∧ (none ∉ l → eqCells eq l l = .ok true) := by
  induction l with
  | nil => exact ⟨by simp, fun _ => rfl⟩
  | cons c l ih =>
    cases c with
    | none => exact ⟨fun _ => rfl, by simp⟩
    | some x =>
      simp only [List.mem_cons, reduceCtorEq, false_or, eqCells, heq, if_true]
      exact ih

/-! ### how much has been initialised -/

/-- Exactly the first `H` cells are initialised. -/
def Prefix (mem : List (Option I)) (H : Nat) : Prop :=
  ∃ xs : List I, xs.length = H ∧ mem = xs.map some ++ List.replicate (mem.length - H) none

theorem Prefix.none_mem {mem : List (Option I)} {H : Nat} (h : Prefix mem H) :
    none ∈ mem ↔ H < mem.length := by
  obtain ⟨xs, h1, h2⟩ := h
  rw [h2]
  simp
  omega

theorem Prefix.copied {mem : List (Option I)} {H u p : Nat} (h : Prefix mem H) (hu : u ≤ p) (hp : p ≤ H) :
    Prefix ((mem.drop u).take (p - u) ++ mem.drop (p - u)) H := by
  obtain ⟨xs, h1, h2⟩ := h
  have hH : H ≤ mem.length := by
    have := congrArg List.length h2
    simp at this
    omega
  have hlen : ((mem.drop u).take (p - u) ++ mem.drop (p - u)).length = mem.length := by
    simp; omega
  refine ⟨(xs.drop u).take (p - u) ++ xs.drop (p - u), by simp; omega, ?_⟩
  rw [hlen, h2]
  have e1 : ((xs.map some ++ List.replicate (mem.length - H) none).drop u).take (p - u) =
      ((xs.drop u).take (p - u)).map some := by
    rw [List.drop_append_of_le_length (by simp; omega), List.take_append_of_le_length (by simp; omega),
      List.map_take, List.map_drop]
  have e2 : (xs.map some ++ List.replicate (mem.length - H) none).drop (p - u) =
      (xs.drop (p - u)).map some ++ List.replicate (mem.length - H) none := by
    rw [List.drop_append_of_le_length (by simp; omega), List.map_drop]
  rw [e1, e2, List.map_append, List.append_assoc, ← h2]

/-- some items are written behind the first `p` -/
theorem Prefix.filled {mem : List (Option I)} {H p : Nat} (h : Prefix mem H) (hp : p ≤ H) (ys : List I)
    (hy : p + ys.length ≤ mem.length) :
    Prefix (mem.take p ++ overlay (mem.drop p) (ys.map some)) (max H (p + ys.length)) := by
  obtain ⟨xs, h1, h2⟩ := h
  have hH : H ≤ mem.length := by
    have := congrArg List.length h2
    simp at this
    omega
  have hlen : (mem.take p ++ overlay (mem.drop p) (ys.map some)).length = mem.length := by
    simp; omega
  have hov : overlay (mem.drop p) (ys.map some) = ys.map some ++ mem.drop (p + ys.length) := by
    generalize hm : mem.drop p = m
    have hml : ys.length ≤ m.length := by rw [← hm]; simp; omega
    have : mem.drop (p + ys.length) = m.drop ys.length := by rw [← hm, List.drop_drop]
    rw [this]
    clear this hm hlen hy
    induction ys generalizing m with
    | nil => cases m <;> rfl
    | cons y ys ih =>
      cases m with
      | nil => simp at hml
      | cons c m => simp only [List.map_cons, overlay, List.length_cons, List.drop_succ_cons, List.cons_append]; rw [ih m (by simpa using hml)]
  rw [hov] at hlen ⊢
  refine ⟨xs.take p ++ ys ++ xs.drop (p + ys.length), by simp; omega, ?_⟩
  rw [hlen]
  have e1 : mem.take p = (xs.take p).map some := by
    rw [h2, List.take_append_of_le_length (by simp; omega), List.map_take]
  have e2 : mem.drop (p + ys.length) = (xs.drop (p + ys.length)).map some ++
      List.replicate (mem.length - max H (p + ys.length)) none := by
    conv => lhs; rw [h2]
    rw [List.drop_append, List.map_drop, List.drop_replicate, List.length_map]
    congr 2
    omega
  rw [e1, e2]
  simp only [List.map_append, List.append_assoc]

variable [DataSource S I] [HonestSource S I] [ExactSource S I]

theorem run_prefix (chk : Bool) (op : BufOp) (s s' : S) (b b' : FixedSizeBuffer I) (H : Nat)
    (hp : Prefix b.buffer H) (hH : b.populated ≤ H) (hi : b.Inv)
    (hr : op.run chk (s, b) = .ok (s', b')) :
    b'.buffer.length = b.buffer.length ∧
      ∃ H', Prefix b'.buffer H' ∧ b'.populated ≤ H' ∧ (H' = H ∨ H' = b'.populated ∧ H ≤ H') := by
  have hpl := hi.populated_le
  cases op with
  | consume n =>
    obtain ⟨b1, h1, h2⟩ := Res.bind_eq_ok.mp hr
    cases h2
    have h1 : FixedSizeBuffer.consume chk n b = .ok b' := h1
    unfold FixedSizeBuffer.consume at h1
    obtain ⟨_, _, h1⟩ := Res.bind_eq_ok.mp h1
    obtain ⟨u, _, h1⟩ := Res.bind_eq_ok.mp h1
    cases h1
    exact ⟨rfl, H, hp, hH, .inl rfl⟩
  | requestSpace n =>
    obtain ⟨b1, h1, h2⟩ := Res.bind_eq_ok.mp hr
    cases h2
    have h1 : FixedSizeBuffer.requestSpace chk n b = .ok b' := h1
    rw [FixedSizeBuffer.requestSpace_eq hi] at h1
    cases h1
    split
    · exact ⟨hi.copied.2, H, hp.copied hi.used_le hH, Nat.le_trans (Nat.sub_le _ _) hH, .inl rfl⟩
    · exact ⟨rfl, H, hp, hH, .inl rfl⟩
  | fill =>
    obtain ⟨⟨r, s1, b1⟩, h1, h2⟩ := Res.bind_eq_ok.mp hr
    cases h2
    have h1 : FixedSizeBuffer.fill chk s b = .ok (r, s', b') := h1
    unfold FixedSizeBuffer.fill at h1
    rw [if_pos hpl] at h1
    have hon := HonestSource.honest s (b.buffer.length - b.populated)
    have hex := ExactSource.ok s (b.buffer.length - b.populated)
    have hee := ExactSource.err s (b.buffer.length - b.populated)
    generalize DataSource.read s (b.buffer.length - b.populated) = rd at h1 hon hex hee
    obtain ⟨out, s2⟩ := rd
    dsimp only at h1 hon hex hee
    cases hres : out.result with
    | error e =>
      rw [hres] at h1
      cases h1
      rw [hee e hres]
      have e : b.buffer.take b.populated ++ overlay (b.buffer.drop b.populated) [] = b.buffer := by
        have : ∀ m : List (Option I), overlay m [] = m := by intro m; cases m <;> rfl
        rw [this, List.take_append_drop]
      dsimp only
      rw [e]
      exact ⟨rfl, H, hp, hH, .inl rfl⟩
    | ok n =>
      obtain ⟨hn, hlen⟩ := hon n hres
      obtain ⟨ws, hw⟩ := honest_writes hres hlen
      have hws : ws = [] := by
        have := hex n hres
        rw [hw] at this
        simp only [List.length_append, List.length_map, hlen] at this
        cases ws with
        | nil => rfl
        | cons => simp at this; omega
      rw [hws, List.append_nil] at hw
      rw [hres] at h1
      obtain ⟨_, _, h1⟩ := Res.bind_eq_ok.mp h1
      obtain ⟨q, hq, h1⟩ := Res.bind_eq_ok.mp h1
      have h3 := hi.size
      have h4 := isize_lt
      rw [uaddB_ok (by omega)] at hq
      cases hq
      cases h1
      have hf := hp.filled hH out.items (by omega)
      rw [hlen] at hf
      rw [hw]
      refine ⟨(hi.scribbled _).2, max H (b.populated + n), hf, Nat.le_max_right _ _, ?_⟩
      dsimp only
      omega

theorem runOps_prefix (chk : Bool) : ∀ (ops : List BufOp) (s s' : S) (b b' : FixedSizeBuffer I) (H : Nat),
    Prefix b.buffer H → b.populated ≤ H → b.Inv → Legal chk ops (s, b) →
    runOps chk ops (s, b) = .ok (s', b') →
    b'.buffer.length = b.buffer.length ∧ ∃ H', Prefix b'.buffer H' ∧ H ≤ H' ∧
      (H' = H ∨ ∃ ops1 ops2 s1 b1, ops = ops1 ++ ops2 ∧ runOps chk ops1 (s, b) = .ok (s1, b1) ∧
        b1.populated = H') ∧
      ∀ ops1 ops2 s1 b1, ops = ops1 ++ ops2 → runOps chk ops1 (s, b) = .ok (s1, b1) →
        b1.populated ≤ H' ∧ b1.buffer.length = b.buffer.length := by
  intro ops
  induction ops with
  | nil =>
    intro s s' b b' H hp hH hi _ hr
    cases hr
    refine ⟨rfl, H, hp, Nat.le_refl _, .inl rfl, ?_⟩
    intro ops1 ops2 s1 b1 he hr
    have : ops1 = [] := by
      cases ops1 with
      | nil => rfl
      | cons => cases he
    subst this
    cases hr
    exact ⟨hH, rfl⟩
  | cons op ops ih =>
    intro s s' b b' H hp hH hi hl hr
    obtain ⟨⟨s1, b1⟩, h1, h2⟩ := Res.bind_eq_ok.mp hr
    obtain ⟨e1, H1, g1, g2, g3⟩ := run_prefix chk op s s1 b b1 H hp hH hi h1
    have hi1 : b1.Inv := by
      rcases BufOp.run_inv chk op s b hi (legal_head hi hl) with ⟨_, hpan⟩ | ⟨s2, b2, xs, f1, f2, _⟩
      · rw [h1] at hpan; cases hpan
      · rw [h1] at f1; cases f1; exact f2
    obtain ⟨e2, H', k1, k2, k3, k4⟩ := ih s1 s' b1 b' H1 g1 g2 hi1 (hl.2 _ h1) h2
    refine ⟨e2.trans e1, H', k1, by omega, ?_, ?_⟩
    · rcases k3 with rfl | ⟨o1, o2, s2, b2, rfl, m1, m2⟩
      · rcases g3 with g3 | ⟨g3, _⟩
        · exact .inl g3
        · exact .inr ⟨[op], ops, s1, b1, rfl, by simp [runOps, h1], g3.symm⟩
      · exact .inr ⟨op :: o1, o2, s2, b2, rfl, by simp [runOps, h1, m1], m2⟩
    · intro o1 o2 s2 b2 he hr2
      cases o1 with
      | nil =>
        cases hr2
        exact ⟨by omega, rfl⟩
      | cons o o1 =>
        simp only [List.cons_append, List.cons.injEq] at he
        obtain ⟨rfl, he⟩ := he
        simp only [runOps, h1, Res.bind_ok] at hr2
        obtain ⟨n1, n2⟩ := k4 o1 o2 s2 b2 he hr2
        exact ⟨n1, n2.trans e1⟩

end Chomp.Derived
