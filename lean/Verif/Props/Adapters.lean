import Verif.Lemmas.Adapters
import Verif.Lemmas.Main
import Verif.Props.Data
import Verif.Props.Retry

/-
C83: ready-made sources, data sources which cannot be told apart, and sources reading from sources.
-/

namespace Chomp.Props

open Spec

/-! ### Creation -/

/-- `Source::new` never panics. Its buffer holds 6 KiB, is empty, and is filled automatically. -/
theorem C83_new (r : R) : ∃ s, Source.new r = .ok s ∧ s.source = ⟨r⟩ ∧ s.capacity = 6144 ∧
    s.bufferSlice = .ok [] ∧ s.state.automaticFill = true ∧
    FixedSizeBuffer.new (I := UInt8) = FixedSizeBuffer.withSize 6144 := by
  obtain ⟨b, h1, h2, h3⟩ := (C44_create (I := UInt8) 6144).2 (by omega) (by unfold isizeMax; omega)
  refine ⟨Source.withBuffer ⟨r⟩ b, ?_, rfl, h3, h2, rfl, rfl⟩
  unfold Source.new FixedSizeBuffer.new
  rw [show 6 * 1024 = 6144 from rfl, h1]
  rfl

/-- `from_read` and `from_iter` use the given reader or iterator and the given buffer, and fill
automatically, starting before the first parse. -/
theorem C83_from [Buffer B I] (r : R) (j : J) (b : B) :
    (Source.fromRead r b).source.inner = r ∧ (Source.fromRead r b).buffer = b ∧
    (Source.fromRead r b).state.automaticFill = true ∧ (Source.fromRead r b).state.incomplete = true ∧
    (Source.fromRead r b).state.endOfInput = false ∧
    (Source.fromIter j b).source.inner = j ∧ (Source.fromIter j b).buffer = b ∧
    (Source.fromIter j b).state.automaticFill = true ∧ (Source.fromIter j b).state.incomplete = true ∧
    (Source.fromIter j b).state.endOfInput = false :=
  ⟨rfl, rfl, rfl, rfl, rfl, rfl, rfl, rfl, rfl, rfl⟩

/-- Through `Source::new`, a retried parse does what the parser does on all of the data, whatever the
reader does, if no request exceeds 6 KiB. -/
theorem C83_new_retry [DataSource R UInt8] [HonestSource R UInt8] {rem : R → List UInt8} {errs : R → Nat}
    (hd : Delivers R rem errs) (chk : Bool) {p : Parser Unit UInt8 T E} (hp : Built streaming p) (r : R)
    (hne : rem r ≠ [])
    (hfit : ∀ x y n, rem r = x ++ y → p ⟨.default, x⟩ () = .ok (.incomplete n, ()) → x.length + n ≤ 6144)
    (hend : ∀ n, p ⟨.endOfInput, rem r⟩ () = .ok (.incomplete n, ()) → (rem r).length + n ≤ usizeMax) :
    ∃ s, Source.new r = .ok s ∧
      Agrees (fun x => rem x.inner) s (p ⟨.endOfInput, rem r⟩ ()) (retry chk p s ()) := by
  obtain ⟨b, h1, h2, h3⟩ := (C44_create (I := UInt8) 6144).2 (by omega) (by unfold isizeMax; omega)
  obtain ⟨g1, g2, g3⟩ := withSize_inv h1
  refine ⟨Source.withBuffer ⟨r⟩ b, ?_, ?_⟩
  · unfold Source.new FixedSizeBuffer.new
    rw [show 6 * 1024 = 6144 from rfl, h1]
    rfl
  · have hc : ∀ t, t ≤ 6144 → LawfulBuffer.CanHold b t := fun t ht => by
      show t ≤ Buffer.capacity b
      omega
    obtain ⟨k1, k2⟩ := C51_new (fun x : ReadDataSource R => rem x.inner) ⟨r⟩ b g1 (hc 1 (by omega))
    rw [g2, List.nil_append] at k2
    have := C51_retry (ReadDataSource.delivers hd) chk hp (Source.withBuffer ⟨r⟩ b) k1
      (by rw [k2]; exact hne) (by
        rw [k2]
        exact ⟨fun x y n hx hn => hc _ (hfit x y n hx hn), hend⟩)
    rwa [k2] at this

/-! ### Data sources which cannot be told apart -/

section
variable {S S' B I : Type} [DataSource S I] [DataSource S' I] [Buffer B I] [Uniform B I]
  {R : S → S' → Prop}

/-- Sources which differ in data sources that cannot be told apart do the same: all methods return the
same, or panic both, or do not return both, and leave sources of the same kind. -/
theorem C83_alike (hR : ReadAlike R) (chk : Bool) (s : Source S B) (s' : Source S' B)
    (h : SameSource R s s') :
    (∀ {σ T E : Type} (p : Parser σ I T E) w, Outcomes (fun x y => x.1.1 = y.1.1 ∧ SameSource R x.1.2 y.1.2 ∧
      x.2 = y.2) (s.parse chk p w) (s'.parse chk p w)) ∧
    Outcomes (fun x y => x.1 = y.1 ∧ SameSource R x.2 y.2) (s.fill chk) (s'.fill chk) ∧
    (∀ k, Outcomes (fun x y => x.1 = y.1 ∧ SameSource R x.2 y.2) (s.read chk k) (s'.read chk k)) ∧
    Outcomes (fun x y => x.1 = y.1 ∧ SameSource R x.2 y.2) (s.fillBuf chk) (s'.fillBuf chk) ∧
    (∀ k, Outcomes (SameSource R) (s.consume chk k) (s'.consume chk k)) ∧
    s.len chk = s'.len chk ∧ s.isEmpty chk = s'.isEmpty chk ∧ s.capacity = s'.capacity ∧
    s.bufferSlice = s'.bufferSlice ∧ SameSource R s.reset s'.reset ∧
    ∀ b, SameSource R (s.setAutofill b) (s'.setAutofill b) := by
  refine ⟨fun p w => Outcomes.mono (Source.parse_alike hR chk p h w) fun _ _ g => ⟨g.1.1, g.1.2, g.2⟩,
    Source.fill_alike hR chk h, fun k => Source.read_alike hR chk k h, Source.fillBuf_alike hR chk h,
    fun k => Source.consume_alike chk k h, ?_, ?_, ?_, ?_, ⟨h.source, h.buffer, h.request, rfl⟩,
    fun b => ⟨h.source, h.buffer, h.request, ?_⟩⟩
  · unfold Source.len; rw [h.buffer]
  · unfold Source.isEmpty Source.len; rw [h.buffer, h.state]
  · unfold Source.capacity; rw [h.buffer]
  · unfold Source.bufferSlice; rw [h.buffer]
  · unfold Source.setAutofill; rw [h.state]
end

/-- A `ReadDataSource` cannot be told apart from the reader inside of it. -/
theorem C83_read_source [DataSource R UInt8] :
    ReadAlike (fun (s : ReadDataSource R) r => s.inner = r) := by
  rintro s _ rfl k
  exact ⟨rfl, rfl⟩

/-- Iterators which cannot be told apart make sources which cannot be told apart. -/
theorem C83_iterator [Iter J I] [Iter J' I] {R : J → J' → Prop}
    (h : ∀ j j', R j j' → (Iter.next j).1 = (Iter.next j').1 ∧ R (Iter.next j).2 (Iter.next j').2) :
    ReadAlike (fun (s : IteratorDataSource J) (s' : IteratorDataSource J') => R s.inner s'.inner) := by
  intro s s' hs k
  have key : ∀ k j j', R j j' → (iterRead k j).1 = (iterRead k j').1 ∧
      R (iterRead k j).2 (iterRead k j').2 := by
    intro k
    induction k with
    | zero => exact fun j j' hj => ⟨rfl, hj⟩
    | succ k ih =>
      intro j j' hj
      obtain ⟨h1, h2⟩ := h j j' hj
      unfold iterRead
      match e : Iter.next j, e' : Iter.next j' with
      | (some x, t), (some x', t') =>
        rw [e, e'] at h1 h2
        cases h1
        obtain ⟨g1, g2⟩ := ih t t' h2
        exact ⟨by dsimp only; rw [g1], g2⟩
      | (none, t), (none, t') =>
        rw [e, e'] at h2
        exact ⟨rfl, h2⟩
      | (some x, t), (none, t') => rw [e, e'] at h1; cases h1
      | (none, t), (some x, t') => rw [e, e'] at h1; cases h1
  obtain ⟨g1, g2⟩ := key k s.inner s'.inner hs
  refine ⟨?_, g2⟩
  show ReadOut.mk _ _ = ReadOut.mk _ _
  rw [g1]

/-! ### Sources reading from sources -/

section
variable {S I : Type} [DataSource S I] [HonestSource S I]

/-- Reading from a source with a `FixedSizeBuffer`: it returns, and what is left can be read from
again. -/
theorem C83_reader_returns (chk : Bool) (k : Nat) (s : Source S (FixedSizeBuffer I)) (h : Usable s) :
    ∃ r s', s.read chk k = .ok (r, s') ∧ Usable s' ∧ s.capacity ≤ s'.capacity := by
  rcases Source.read_spec chk k s h with ⟨_, _, h2⟩ | ⟨e, s1, xs, h1, h2⟩ |
    ⟨n, s1, xs, b, h1, h2, h3, h4, _, h5, _⟩
  · rw [show Buffer.requestSpace chk (k - (held s).length) s.buffer =
      FixedSizeBuffer.requestSpace chk (k - (held s).length) s.buffer from rfl,
      FixedSizeBuffer.requestSpace_eq h] at h2
    cases h2
  · exact ⟨_, _, h1, h2.usable, h2.cap⟩
  · exact ⟨_, _, h1, h3, by
      show _ ≤ Buffer.capacity b
      rw [h5]
      exact h2.cap⟩
end

/-- A `Source` over a `FixedSizeBuffer`, used as a reader (`io::Read for Source`). The type of items is
not restricted to bytes here. -/
structure Layer (chk : Bool) (S : Type) {I : Type} [DataSource S I] where
  src : Source S (FixedSizeBuffer I)
  usable : Usable src
  size : 0 < src.capacity

/-- Its `read`. The last case does not occur (`C83_reader_returns`). -/
instance [DataSource S I] [HonestSource S I] : DataSource (Layer chk S) I where
  read s k :=
    match h : s.src.read chk k with
    | .ok (r, s') =>
      have hs : Usable s' ∧ 0 < s'.capacity := by
        obtain ⟨r1, s1, h1, h2, h3⟩ := C83_reader_returns chk k s.src s.usable
        rw [h] at h1
        cases h1
        exact ⟨h2, Nat.lt_of_lt_of_le s.size h3⟩
      match r with
      | .error e => (⟨[], .error e⟩, ⟨s', hs.1, hs.2⟩)
      | .ok ys => (⟨ys.map some, .ok ys.length⟩, ⟨s', hs.1, hs.2⟩)
    | _ => (⟨[], .ok 0⟩, s)

section
variable {S I : Type} [DataSource S I] [HonestSource S I] {chk : Bool}

/-- What is read from the layer is what is read from the source. -/
theorem C83_layer (s : Layer chk S) (k : Nat) :
    ∃ r, s.src.read chk k = .ok (r, (DataSource.read s k).2.src) ∧
      (DataSource.read s k).1.result = r.map List.length ∧
      (DataSource.read s k).1.items = match r with
        | .error _ => []
        | .ok ys => ys := by
  obtain ⟨r, s', h1, _⟩ := C83_reader_returns chk k s.src s.usable
  refine ⟨r, ?_⟩
  simp only [DataSource.read]
  split
  · rename_i r1 s1 h
    rw [h1] at h
    cases h
    cases r with
    | error e => exact ⟨h1, rfl, rfl⟩
    | ok ys =>
      refine ⟨h1, rfl, ?_⟩
      show ((ys.map some).take ys.length).filterMap id = ys
      rw [List.take_of_length_le (by simp)]
      simp
  · rename_i h
    exact absurd h1 (h _ _)

instance : HonestSource (Layer chk S) I where
  honest s k n h := by
    obtain ⟨r, h1, h2, h3⟩ := C83_layer s k
    rw [h2] at h
    rw [h3]
    rcases C56_read chk k s.src s.usable with ⟨g, _⟩ | ⟨r1, s1, xs, g1, _, _, _, _, g2⟩
    · rw [h1] at g; cases g
    · rw [h1] at g1
      cases g1
      cases r with
      | error e => cases h
      | ok ys =>
        cases h
        dsimp only at g2 ⊢
        exact ⟨by rw [g2.2.1]; exact Nat.min_le_left _ _, rfl⟩

/-- Reading from a source delivers what it holds and what its own source delivers, in order and without
loss, through any I/O errors, and ends at the end of the data only. -/
theorem C83_delivers {rem : S → List I} {errs : S → Nat} (hd : Delivers S rem errs) :
    Delivers (Layer chk S) (fun s => held s.src ++ rem s.src.source) (fun s => errs s.src.source) where
  ok s k n h := by
    obtain ⟨r, h1, h2, h3⟩ := C83_layer s k
    rw [h2] at h
    rw [h3]
    generalize (DataSource.read s k).2 = t at h1
    rcases C56_read chk k s.src s.usable with ⟨g, _⟩ | ⟨r1, s1, xs, g1, _, g3, _, _, g2⟩
    · rw [h1] at g; cases g
    · rw [h1] at g1
      cases g1
      cases r with
      | error e => cases h
      | ok ys =>
        cases h
        dsimp only at g2 ⊢
        obtain ⟨k1, k2⟩ := g3.rem hd
        refine ⟨?_, k2, fun hk hne => ?_⟩
        · rw [k1, ← List.append_assoc, g2.1, List.append_assoc]
        · refine Nat.pos_of_ne_zero fun h0 => hne ?_
          rw [List.length_eq_zero_iff] at h0
          subst h0
          exact C56_fixed hd chk k s.src t.src s.usable s.size hk h1
  err s k e h := by
    obtain ⟨r, h1, h2, h3⟩ := C83_layer s k
    rw [h2] at h
    generalize (DataSource.read s k).2 = t at h1
    rcases C56_read chk k s.src s.usable with ⟨g, _⟩ | ⟨r1, s1, xs, g1, _, g3, _, _, g2⟩
    · rw [h1] at g; cases g
    · rw [h1] at g1
      cases g1
      cases r with
      | ok ys => cases h
      | error e' =>
        dsimp only at g2 ⊢
        obtain ⟨k1, _⟩ := g3.rem hd
        refine ⟨by rw [k1, g2.1, List.append_assoc], ?_⟩
        obtain ⟨l, hl⟩ := g2.2
        exact hl.errs hd

end

/-- So a source can be put on top of a source: a retried parse does what the parser does on all of the
data, whatever the sizes of both buffers, if its requests fit into the upper one. -/
theorem C83_nested [DataSource S I] [HonestSource S I] {rem : S → List I} {errs : S → Nat}
    (hd : Delivers S rem errs) (chk : Bool) [Buffer B I] [LawfulBuffer B I] {p : Parser Unit I T E}
    (hp : Built streaming p) (lower : Layer chk S) (s : Source (Layer chk S) B) (hs : s.source = lower)
    (h : Ready (fun s : Layer chk S => held s.src ++ rem s.src.source) s)
    (hne : held s ++ (held lower.src ++ rem lower.src.source) ≠ [])
    (hfit : Fits p s.buffer (held s ++ (held lower.src ++ rem lower.src.source))) :
    Agrees (fun s : Layer chk S => held s.src ++ rem s.src.source) s
      (p ⟨.endOfInput, held s ++ (held lower.src ++ rem lower.src.source)⟩ ()) (retry chk p s ()) := by
  subst hs
  exact C51_retry (C83_delivers hd) chk hp s h hne hfit

namespace AdaptersExample

/-- `take(2)` on a reader which fails once, through `Source::new`. -/
example (chk : Bool) : ∃ s, Source.new (⟨[.data 1 [], .err ⟨0⟩, .data 2 [3]]⟩ : Script UInt8) = .ok s ∧
    ∃ s', retry chk (Parsers.take 2 : Parser Unit UInt8 (List UInt8) (Error UInt8)) s () =
        .ok ((.ok [1, 2], s'), ()) ∧ ahead (fun x => x.inner.rem) s' = [3] := by
  have hp : Built streaming (Parsers.take 2 : Parser Unit UInt8 (List UInt8) (Error UInt8)) := .take 2
  obtain ⟨s, h1, h2⟩ := C83_new_retry Script.delivers chk hp
    (⟨[.data 1 [], .err ⟨0⟩, .data 2 [3]]⟩ : Script UInt8) (by decide) (by
      intro x y n _ h
      rw [Parsers.take_eq] at h
      split at h
      · cases h
      · cases h
        rename_i hlt
        dsimp only at hlt ⊢
        omega) (by
      intro n h
      cases h)
  refine ⟨s, h1, ?_⟩
  obtain ⟨s', g1, g2, _⟩ := h2
  exact ⟨s', g1, g2⟩

/-- An iterator which counts down, and the list of what it yields. -/
instance : Iter Nat Nat where
  next
    | 0 => (none, 0)
    | n + 1 => (some n, n)

example (chk : Bool) (b : GrowingBuffer Nat) : Outcomes (fun x y => x.1 = y.1)
    ((Source.fromIter (3 : Nat) b).fill chk) ((Source.fromIter [2, 1, 0] b).fill chk) := by
  have h := C83_iterator (J := Nat) (J' := List Nat)
    (R := fun n l => l = (List.range n).reverse) (fun j j' h => by
      subst h
      cases j with
      | zero => exact ⟨rfl, rfl⟩
      | succ n => rw [List.range_succ, List.reverse_append]; exact ⟨rfl, rfl⟩)
  exact Outcomes.mono (C83_alike h chk (Source.fromIter (3 : Nat) b) (Source.fromIter [2, 1, 0] b)
    ⟨rfl, rfl, rfl, rfl⟩).2.1 fun _ _ g => g.1

/-- Two layers: a buffer for one item below, one for four above. -/
def lower : Layer chk (Script Nat) :=
  ⟨Source.withBuffer ⟨[.data 1 [2], .err ⟨0⟩, .data 3 []]⟩ ⟨[none], 0, 0⟩,
    ((C48_new (S := Script Nat) (B := FixedSizeBuffer Nat)).2.1 1 _ rfl).1, Nat.zero_lt_one⟩

example (chk : Bool) : ∃ s', retry chk (Parsers.take 3 : Parser Unit Nat (List Nat) (Error Nat))
    (Source.withBuffer (lower : Layer chk (Script Nat)) (⟨List.replicate 4 none, 0, 0⟩ : FixedSizeBuffer Nat)) () =
      .ok ((.ok [1, 2, 3], s'), ()) := by
  obtain ⟨h1, h2⟩ := (C48_new (S := Script Nat) (B := FixedSizeBuffer Nat)).2.1 4 _ rfl
  have hp : Built streaming (Parsers.take 3 : Parser Unit Nat (List Nat) (Error Nat)) := .take 3
  have := C83_nested Script.delivers chk hp (lower : Layer chk (Script Nat))
    (Source.withBuffer lower (⟨List.replicate 4 none, 0, 0⟩ : FixedSizeBuffer Nat)) rfl
    (C51_new _ lower _ h1 (show 1 ≤ 4 by omega)).1 (fun h => by cases h) (by
      refine ⟨fun x y n hx h => ?_, fun n h => by cases h⟩
      rw [Parsers.take_eq] at h
      split at h
      · cases h
      · cases h
        rename_i hlt
        dsimp only at hlt
        show x.length + (3 - x.length) ≤ 4
        omega)
  obtain ⟨s', g1, _⟩ := this
  exact ⟨s', g1⟩

end AdaptersExample

end Chomp.Props
