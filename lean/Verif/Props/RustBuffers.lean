import Verif.Rust.Sources

/-
C110: the text of the buffers and data sources of /repo, run by the rules of Rust, does what the model says.

As in Verif/Props/RustText.lean, with memory: `runWith W Text.f args cells` runs `f` where `cells` are variables of
the caller, `.loc k []` is a `&mut` to the `k`-th of them, and yields what `f` returned and the variables after it.
`.con "SliceMut" [.loc k [], .nat m, .nat n]` is `&mut v[m..n]` where `v` is the `k`-th variable, a `Vec`.
-/

namespace Chomp.Props

open Rust hiding bind map

section
variable {σ X Y S R J : Type} [Build]

/-! ### src/buffer/data_source.rs -/

section

/-- `s` written as `y s`, `read` of the user's `DataSource` or `io::Read` does what the model of it says. -/
def UserReads [DataSource S X] (W : World σ X Y) (y : S → Y) : Prop :=
  ∀ s k, W.read (y s) k = ((DataSource.read s k).1, y (DataSource.read s k).2)

/-- `next` of the user's iterator does what the model of it says. -/
def UserNext [Iter J X] (W : World σ X Y) (y : J → Y) : Prop :=
  ∀ j, W.next (y j) = ((Iter.next j).1, y (Iter.next j).2)

/-- `ReadDataSource`, src/buffer/data_source.rs:28. -/
def ofReader (y : R → Y) (s : ReadDataSource R) : Val X Y := .con "ReadDataSource" [.other (y s.inner)]

/-- `IteratorDataSource`, src/buffer/data_source.rs:54. -/
def ofIterator (y : J → Y) (s : IteratorDataSource J) : Val X Y := .con "IteratorDataSource" [.other (y s.inner)]

theorem C110_ReadDataSource_new (W : World σ X Y) (y : R → Y) (r : R) :
    run W Text.ReadDataSource_new [.other (y r)] = pure (ofReader y ⟨r⟩) :=
  run_eq W (ReadDataSource_new W _)

theorem C110_ReadDataSource_into_inner (W : World σ X Y) (y : R → Y) (s : ReadDataSource R) :
    run W Text.ReadDataSource_into_inner [ofReader y s] = pure (.other (y s.inner)) :=
  run_eq W (ReadDataSource_into_inner W _)

theorem C110_IteratorDataSource_new (W : World σ X Y) (y : J → Y) (j : J) :
    run W Text.IteratorDataSource_new [.other (y j)] = pure (ofIterator y ⟨j⟩) :=
  run_eq W (IteratorDataSource_new W _)

theorem C110_IteratorDataSource_into_inner (W : World σ X Y) (y : J → Y) (s : IteratorDataSource J) :
    run W Text.IteratorDataSource_into_inner [ofIterator y s] = pure (.other (y s.inner)) :=
  run_eq W (IteratorDataSource_into_inner W _)

/-- `s.read(&mut v[m..])` -/
theorem C110_ReadDataSource_read [DataSource R UInt8] (W : World σ UInt8 Y) (y : R → Y) (h : UserReads W y)
    (s : ReadDataSource R) (mem : List (Option UInt8)) (cap : Nat) (extra : Nat → Nat) (allocs m : Nat)
    (hl : mem.length ≤ usizeMax) (hm : m ≤ mem.length) :
    runWith W Text.ReadDataSource_read [.loc 0 [], .con "SliceMut" [.loc 1 [], .nat m, .nat mem.length]]
        [ofReader y s, .vec mem cap extra allocs]
      = (match DataSource.read s (mem.length - m) with
        | (out, s) => pure (ofIo out.result,
          [ofReader y s, .vec (mem.take m ++ overlay (mem.drop m) out.writes) cap extra allocs])) :=
by
  have := runWith_pure (Reads.reader_call y h s mem cap extra allocs m hl hm)
  exact this

/-- `s.read(&mut v[m..])` -/
theorem C110_IteratorDataSource_read [Iter J X] (W : World σ X Y) (y : J → Y) (h : UserNext W y)
    (s : IteratorDataSource J) (mem : List (Option X)) (cap : Nat) (extra : Nat → Nat) (allocs m : Nat)
    (hl : mem.length ≤ usizeMax) (hm : m ≤ mem.length) :
    runWith W Text.IteratorDataSource_read [.loc 0 [], .con "SliceMut" [.loc 1 [], .nat m, .nat mem.length]]
        [ofIterator y s, .vec mem cap extra allocs]
      = (match DataSource.read s (mem.length - m) with
        | (out, s) => pure (ofIo out.result,
          [ofIterator y s, .vec (mem.take m ++ overlay (mem.drop m) out.writes) cap extra allocs])) :=
by
  have := runWith_pure (Reads.iter_call W y h s mem cap extra allocs m hl hm)
  exact this

end

/-! ### FixedSizeBuffer, src/buffer/buffer.rs -/

section
variable (W : World σ X Y)

theorem C110_Fixed_with_size (n : Nat) :
    run W Text.FixedSizeBuffer_with_size [.nat n] = (do
      let b ← M.lift (FixedSizeBuffer.withSize n)
      pure (ofFixed (min isizeMax (n + W.extra 0)) W.extra 1 b)) :=
  run_eq W (Fixed_with_size W n)

theorem C110_Fixed_new :
    run W Text.FixedSizeBuffer_new [] = (do
      let b ← M.lift FixedSizeBuffer.new
      pure (ofFixed (min isizeMax (6 * 1024 + W.extra 0)) W.extra 1 b)) :=
  run_eq W (Fixed_new W)

variable (cap : Nat) (extra : Nat → Nat) (allocs : Nat) (b : FixedSizeBuffer X)

theorem C110_Fixed_deref :
    run W Text.FixedSizeBuffer_deref [ofFixed cap extra allocs b] = (do let l ← M.lift b.deref; pure (.slice l)) :=
  run_eq W (Fixed_deref W cap extra allocs b)

theorem C110_Fixed_deref_mut :
    runWith W Text.FixedSizeBuffer_deref_mut [.loc 0 []] [ofFixed cap extra allocs b] = (do
      M.lift (assert (b.used ≤ b.populated ∧ b.populated ≤ b.buffer.length))
      pure (.con "SliceMut" [.loc 0 ["buffer"], .nat b.used, .nat b.populated], [ofFixed cap extra allocs b])) :=
  runWith_eq (Fixed_deref_mut W (Ref.cell [] []) cap extra allocs b)

theorem C110_Fixed_len :
    run W Text.FixedSizeBuffer_len [ofFixed cap extra allocs b]
      = (do let n ← M.lift (b.len Build.checked); pure (.nat n)) :=
  run_eq W (Fixed_len W cap extra allocs b)

theorem C110_Fixed_capacity :
    run W Text.FixedSizeBuffer_capacity [ofFixed cap extra allocs b] = pure (.nat b.capacity) :=
  run_eq W (Fixed_capacity W cap extra allocs b)

theorem C110_Fixed_consume (n : Nat) :
    runWith W Text.FixedSizeBuffer_consume [.loc 0 [], .nat n] [ofFixed cap extra allocs b]
      = (do let b ← M.lift (b.consume Build.checked n); pure (.unit, [ofFixed cap extra allocs b])) :=
  runWith_eq (Fixed_consume W cap extra allocs (Ref.cell [] []) b n)

theorem C110_Fixed_request_space (n : Nat) :
    runWith W Text.FixedSizeBuffer_request_space [.loc 0 [], .nat n] [ofFixed cap extra allocs b]
      = (do let b ← M.lift (b.requestSpace Build.checked n); pure (.unit, [ofFixed cap extra allocs b])) :=
  runWith_eq (Fixed_request_space W cap extra allocs (Ref.cell [] []) b n)

/-- With a data source of the user. -/
theorem C110_Fixed_fill [DataSource S X] (y : S → Y) (h : UserReads W y) (s : S) (hl : b.buffer.length ≤ usizeMax) :
    runWith W Text.FixedSizeBuffer_fill [.loc 0 [], .loc 1 []] [ofFixed cap extra allocs b, .other (y s)]
      = (do
        let (r, s, b) ← M.lift (b.fill Build.checked s)
        pure (ofIo r, [ofFixed cap extra allocs b, .other (y s)])) :=
  runWith_eq (Fixed_fill W cap extra allocs (F := fun s b => [b, s]) (fun _ => Ref.cell [] [_]) (fun b => Ref.cell [b] [])
    (Reads.user W y h) s b hl)

theorem C110_Fixed_fill_iter [Iter J X] (y : J → Y) (h : UserNext W y) (s : IteratorDataSource J)
    (hl : b.buffer.length ≤ usizeMax) :
    runWith W Text.FixedSizeBuffer_fill [.loc 0 [], .loc 1 []] [ofFixed cap extra allocs b, ofIterator y s]
      = (do
        let (r, s, b) ← M.lift (b.fill Build.checked s)
        pure (ofIo r, [ofFixed cap extra allocs b, ofIterator y s])) :=
  runWith_eq (Fixed_fill W cap extra allocs (F := fun s b => [b, s]) (fun _ => Ref.cell [] [_]) (fun b => Ref.cell [b] [])
    (Reads.iter W y h) s b hl)

end

theorem C110_Fixed_fill_read [DataSource R UInt8] (W : World σ UInt8 Y) (y : R → Y) (h : UserReads W y) (cap : Nat)
    (extra : Nat → Nat) (allocs : Nat) (s : ReadDataSource R) (b : FixedSizeBuffer UInt8)
    (hl : b.buffer.length ≤ usizeMax) :
    runWith W Text.FixedSizeBuffer_fill [.loc 0 [], .loc 1 []] [ofFixed cap extra allocs b, ofReader y s]
      = (do
        let (r, s, b) ← M.lift (b.fill Build.checked s)
        pure (ofIo r, [ofFixed cap extra allocs b, ofReader y s])) :=
  runWith_eq (Fixed_fill W cap extra allocs (F := fun s b => [b, s]) (fun _ => Ref.cell [] [_]) (fun b => Ref.cell [b] [])
    (Reads.reader y h) s b hl)

/-! ### GrowingBuffer, src/buffer/buffer.rs -/

section
variable (W : World σ X Y)

theorem C110_Growing_with_limit (n : Nat) :
    run W Text.GrowingBuffer_with_limit [.nat n] = pure (ofGrowing (.withLimit W.extra n)) :=
  run_eq W (Growing_with_limit W n)

theorem C110_Growing_new : run W Text.GrowingBuffer_new [] = pure (ofGrowing (.new W.extra)) :=
  run_eq W (Growing_new W)

variable (b : GrowingBuffer X)

theorem C110_Growing_deref :
    run W Text.GrowingBuffer_deref [ofGrowing b] = (do let l ← M.lift b.deref; pure (.slice l)) :=
  run_eq W (Growing_deref W b)

theorem C110_Growing_deref_mut :
    runWith W Text.GrowingBuffer_deref_mut [.loc 0 []] [ofGrowing b] = (do
      M.lift (assert (b.used ≤ b.populated ∧ b.populated ≤ b.buffer.length))
      pure (.con "SliceMut" [.loc 0 ["buffer"], .nat b.used, .nat b.populated], [ofGrowing b])) :=
  runWith_eq (Growing_deref_mut W (Ref.cell [] []) b)

theorem C110_Growing_len :
    run W Text.GrowingBuffer_len [ofGrowing b] = (do let n ← M.lift (b.len Build.checked); pure (.nat n)) :=
  run_eq W (Growing_len W b)

theorem C110_Growing_capacity : run W Text.GrowingBuffer_capacity [ofGrowing b] = pure (.nat b.capacity) :=
  run_eq W (Growing_capacity W b)

theorem C110_Growing_consume (n : Nat) :
    runWith W Text.GrowingBuffer_consume [.loc 0 [], .nat n] [ofGrowing b]
      = (do let b ← M.lift (b.consume Build.checked n); pure (.unit, [ofGrowing b])) :=
  runWith_eq (Growing_consume W (Ref.cell [] []) b n)

theorem C110_Growing_request_space (n : Nat) :
    runWith W Text.GrowingBuffer_request_space [.loc 0 [], .nat n] [ofGrowing b]
      = (do let b ← M.lift (b.requestSpace Build.checked n); pure (.unit, [ofGrowing b])) :=
  runWith_eq (Growing_request_space W (Ref.cell [] []) b n)

/-- With a data source of the user. -/
theorem C110_Growing_fill [DataSource S X] (y : S → Y) (h : UserReads W y) (s : S) (hl : b.buffer.length ≤ usizeMax) :
    runWith W Text.GrowingBuffer_fill [.loc 0 [], .loc 1 []] [ofGrowing b, .other (y s)]
      = (do
        let (r, s, b) ← M.lift (b.fill Build.checked s)
        pure (ofIo r, [ofGrowing b, .other (y s)])) :=
  runWith_eq (Growing_fill W (F := fun s b => [b, s]) (fun _ => Ref.cell [] [_]) (fun b => Ref.cell [b] [])
    (Reads.user W y h) s b hl)

theorem C110_Growing_fill_iter [Iter J X] (y : J → Y) (h : UserNext W y) (s : IteratorDataSource J)
    (hl : b.buffer.length ≤ usizeMax) :
    runWith W Text.GrowingBuffer_fill [.loc 0 [], .loc 1 []] [ofGrowing b, ofIterator y s]
      = (do
        let (r, s, b) ← M.lift (b.fill Build.checked s)
        pure (ofIo r, [ofGrowing b, ofIterator y s])) :=
  runWith_eq (Growing_fill W (F := fun s b => [b, s]) (fun _ => Ref.cell [] [_]) (fun b => Ref.cell [b] [])
    (Reads.iter W y h) s b hl)

end

theorem C110_Growing_fill_read [DataSource R UInt8] (W : World σ UInt8 Y) (y : R → Y) (h : UserReads W y)
    (s : ReadDataSource R) (b : GrowingBuffer UInt8) (hl : b.buffer.length ≤ usizeMax) :
    runWith W Text.GrowingBuffer_fill [.loc 0 [], .loc 1 []] [ofGrowing b, ofReader y s]
      = (do
        let (r, s, b) ← M.lift (b.fill Build.checked s)
        pure (ofIo r, [ofGrowing b, ofReader y s])) :=
  runWith_eq (Growing_fill W (F := fun s b => [b, s]) (fun _ => Ref.cell [] [_]) (fun b => Ref.cell [b] [])
    (Reads.reader y h) s b hl)

end

/-! ### Cases -/

namespace BuffersEx

/-- Bytes; readers and iterators of the user are lists of them. A reader yields at most two bytes at a time, and the
error 5 for the byte 255. -/
instance : DataSource (List UInt8) UInt8 where
  read s k :=
    match s with
    | 255 :: s => (⟨[], .error ⟨5⟩⟩, s)
    | s => (⟨(s.take (min 2 k)).map some, .ok (min (min 2 k) s.length)⟩, s.drop (min 2 k))

instance : Iter (List UInt8) UInt8 where
  next
    | [] => (none, [])
    | x :: l => (some x, l)

def world : World Unit UInt8 (List UInt8) where
  verbose := false
  ext _ _ := M.ub
  eq a b := pure (a == b)
  ne a b := pure (a != b)
  clone := pure
  cloneOther := pure
  from_ := pure
  byte n := UInt8.ofNat n
  le a b := a ≤ b
  sub a b := .ok (a - b)
  fromU8 x := pure [x]
  fromI8 _ := pure []
  add _ _ := M.panic
  mul _ _ := M.panic
  collect := ⟨Unit, (), fun _ => .panic⟩
  extra _ := 3
  read := DataSource.read
  next := Iter.next

theorem reads : UserReads (S := List UInt8) world id := fun _ _ => rfl
theorem nexts : UserNext (J := List UInt8) world id := fun _ => rfl

section
local instance : Build := ⟨true⟩

/-- A buffer of four items, one of which is used. -/
def small : FixedSizeBuffer UInt8 := ⟨[some 1, some 2, none, none], 2, 1⟩

-- the iterator fills it up
example : runWith world Text.FixedSizeBuffer_fill [.loc 0 [], .loc 1 []]
      [ofFixed 4 world.extra 1 small, ofIterator id ⟨[7, 8, 9]⟩] ()
    = .ok ((.con "Ok" [.nat 2], [ofFixed 4 world.extra 1 ⟨[some 1, some 2, some 7, some 8], 4, 1⟩,
        ofIterator id ⟨[9]⟩]), ()) := by
  rw [C110_Fixed_fill_iter world 4 world.extra 1 small id nexts ⟨[7, 8, 9]⟩ (by decide)]
  rfl

-- the reader fails
example : runWith world Text.FixedSizeBuffer_fill [.loc 0 [], .loc 1 []]
      [ofFixed 4 world.extra 1 small, ofReader id ⟨[255, 8]⟩] ()
    = .ok ((.con "Err" [.con "io::Error" [.nat 5]], [ofFixed 4 world.extra 1 small, ofReader id ⟨[8]⟩]), ()) := by
  rw [C110_Fixed_fill_read world id reads 4 world.extra 1 ⟨[255, 8]⟩ small (by decide)]
  rfl

-- the used item makes room
example : runWith world Text.FixedSizeBuffer_request_space [.loc 0 [], .nat 3] [ofFixed 4 world.extra 1 small] ()
    = .ok ((.unit, [ofFixed 4 world.extra 1 ⟨[some 2, some 2, none, none], 1, 0⟩]), ()) := by
  rw [C110_Fixed_request_space]
  rfl

-- more is consumed than there is
example : runWith world Text.FixedSizeBuffer_consume [.loc 0 [], .nat 2] [ofFixed 4 world.extra 1 small] () = .panic := by
  rw [C110_Fixed_consume]
  rfl

-- reading to the end of a slice
example : runWith world Text.IteratorDataSource_read [.loc 0 [], .con "SliceMut" [.loc 1 [], .nat 1, .nat 3]]
      [ofIterator id ⟨[7, 8, 9]⟩, .vec [none, some 1, none] 3 world.extra 1] ()
    = .ok ((.con "Ok" [.nat 2], [ofIterator id ⟨[9]⟩, .vec [none, some 7, some 8] 3 world.extra 1]), ()) := by
  refine (congrFun (C110_IteratorDataSource_read world id nexts ⟨[7, 8, 9]⟩ [none, some 1, none] 3 world.extra 1 1
    (by decide) (by decide)) ()).trans ?_
  rfl

-- two items are asked for; the allocator yields five
example : runWith world Text.GrowingBuffer_request_space [.loc 0 [], .nat 2] [ofGrowing (.new world.extra)] ()
    = .ok ((.unit, [ofGrowing ⟨[none, none, none, none, none], 5, 0, 0, 0, world.extra, 1⟩]), ()) := by
  rw [C110_Growing_request_space]
  rfl

-- beyond its limit the buffer refuses
example : runWith world Text.GrowingBuffer_request_space [.loc 0 [], .nat 2]
      [ofGrowing ⟨[some 1, some 2, none], 3, 2, 2, 0, world.extra, 1⟩] ()
    = .ok ((.unit, [ofGrowing ⟨[some 1, some 2, none], 3, 2, 2, 0, world.extra, 1⟩]), ()) := by
  rw [C110_Growing_request_space]
  rfl

-- memory which was not written to is never a slice: `populated` says so here, against what `fill` guarantees
example : run world Text.GrowingBuffer_deref [ofGrowing ⟨[some 1, none], 2, 2, 0, 0, world.extra, 1⟩] () = .ub := by
  rw [C110_Growing_deref]
  rfl

example : run world Text.FixedSizeBuffer_with_size [.nat 0] () = .panic := by
  rw [C110_Fixed_with_size]
  rfl

end

section
local instance : Build := ⟨false⟩

-- without debug assertions more can be consumed than there is
example : runWith world Text.FixedSizeBuffer_consume [.loc 0 [], .nat 2] [ofFixed 4 world.extra 1 small] ()
    = .ok ((.unit, [ofFixed 4 world.extra 1 ⟨[some 1, some 2, none, none], 2, 3⟩]), ()) := by
  rw [C110_Fixed_consume]
  rfl

end

end BuffersEx

end Chomp.Props
