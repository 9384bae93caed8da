import Verif.Rust.Constructors
import Verif.Props.RustBuffers
import Verif.Lemmas.Source

/-
C111: the text of the streams of /repo, run by the rules of Rust, does what the model says.

As in Verif/Props/RustBuffers.lean: `runWith W Text.f args cells` runs `f` where `cells` are variables of the caller, and
`.loc k []` is a `&mut` to the `k`-th of them.
-/

namespace Chomp.Props

open Rust hiding bind map

section
variable {σ X Y S R J B T E : Type} [Build]

/-! ### src/buffer/mod.rs and src/buffer/slice.rs -/

section
variable (W : World σ X Y)

theorem C111_StreamError_from (e : E → Val X Y) (s : ParseError X E) :
    run W Text.StreamError_from [ofParseError e s] = pure (ofStreamError e (.ofParseError s)) :=
  run_eq W (StreamError_from W e s)

theorem C111_SliceStream_new (b : List X) : run W Text.SliceStream_new [.slice b] = pure (ofSliceStream (.new b)) :=
  run_eq W (SliceStream_new W b)

/-- `into_stream` of a slice. -/
theorem C111_into_stream (b : List X) : run W Text.slice_into_stream [.slice b] = pure (ofSliceStream (.new b)) :=
  run_eq W (slice_into_stream W b)

theorem C111_SliceStream_len (s : SliceStream X) :
    run W Text.SliceStream_len [ofSliceStream s] = (do let n ← M.lift (s.len Build.checked); pure (.nat n)) :=
  run_eq W (SliceStream_len W s)

theorem C111_SliceStream_is_empty (s : SliceStream X) :
    run W Text.SliceStream_is_empty [ofSliceStream s] = (do let b ← M.lift (s.isEmpty Build.checked); pure (.bool b)) :=
  run_eq W (SliceStream_is_empty W s)

theorem C111_SliceStream_parse (t : T → Val X Y) (e : E → Val X Y) (f : Val X Y) (p : Parser σ X T E)
    (h : IsParser W f t e p) (s : SliceStream X) :
    runWith W Text.SliceStream_parse [.loc 0 [], f] [ofSliceStream s] = (do
      let (r, s) ← s.parse Build.checked p
      pure (ofExcept t (ofStreamError e) r, [ofSliceStream s])) :=
  runWith_eq (SliceStream_parse W (Ref.cell [] []) t e f p h s)

end

/-! ### src/buffer/stateful.rs -/

/-- The data sources of the crate and of the user: `SourceOf W S es` says that in the world `W` a data source of the type
`S` is written as `es` says. -/
inductive SourceOf : {X : Type} → (W : World σ X Y) → (S : Type) → [DataSource S X] → (S → Val X Y) → Prop
  /-- A data source of the user. -/
  | user {X S : Type} [DataSource S X] {W : World σ X Y} (y : S → Y) (h : UserReads W y) :
    SourceOf W S (fun s => .other (y s))
  /-- `ReadDataSource` over a reader of the user. -/
  | reader {R : Type} [DataSource R UInt8] {W : World σ UInt8 Y} (y : R → Y) (h : UserReads W y) :
    SourceOf W (ReadDataSource R) (ofReader y)
  /-- `IteratorDataSource` over an iterator of the user. -/
  | iterator {X J : Type} [Iter J X] {W : World σ X Y} (y : J → Y) (h : UserNext W y) :
    SourceOf W (IteratorDataSource J) (ofIterator y)

/-- The buffers of the crate: `BufferOf B eb Fits` says that a buffer of the type `B` is written as `eb` says, and that
`Fits` says that its lengths are a `usize`. -/
inductive BufferOf : (B : Type) → [Buffer B X] → (B → Val X Y) → (B → Prop) → Prop
  | fixed (cap : Nat) (extra : Nat → Nat) (allocs : Nat) :
    BufferOf (FixedSizeBuffer X) (ofFixed cap extra allocs) (fun b => b.buffer.length ≤ usizeMax)
  | growing : BufferOf (GrowingBuffer X) ofGrowing (fun b => b.buffer.length ≤ usizeMax ∧ b.cap ≤ usizeMax)

theorem SourceOf.reads [DataSource S X] {W : World σ X Y} {es : S → Val X Y} (h : SourceOf W S es) : Rust.Reads W es := by
  cases h with
  | user y h => exact Rust.Reads.user W y h
  | reader y h => exact Rust.Reads.reader y h
  | iterator y h => exact Rust.Reads.iter W y h

theorem BufferOf.laws [Buffer B X] (W : World σ X Y) {eb : B → Val X Y} {Fits : B → Prop} (h : BufferOf B eb Fits) :
    IsBuffer W eb Fits := by
  cases h with
  | fixed cap extra allocs => exact isFixed W cap extra allocs
  | growing => exact isGrowing W

section
variable (W : World σ X Y)

theorem C111_Source_with_buffer (es : S → Val X Y) (eb : B → Val X Y) (s : S) (b : B) :
    run W Text.Source_with_buffer [es s, eb b] = pure (ofSource es eb (.withBuffer s b)) :=
  run_eq W (Source_with_buffer W s b)

theorem C111_Source_from_read (y : R → Y) (eb : B → Val X Y) (r : R) (b : B) :
    run W Text.Source_from_read [.other (y r), eb b] = pure (ofSource (ofReader y) eb (.fromRead r b)) :=
  run_eq W (Source_from_read W y r b)

theorem C111_Source_from_iter (y : J → Y) (eb : B → Val X Y) (j : J) (b : B) :
    run W Text.Source_from_iter [.other (y j), eb b] = pure (ofSource (ofIterator y) eb (.fromIter j b)) :=
  run_eq W (Source_from_iter W y j b)

end

/-- The buffer is allocated, with what the allocator yields in excess. -/
theorem C111_Source_new (W : World σ UInt8 Y) (y : R → Y) (r : R) :
    run W Text.Source_new [.other (y r)] = (do
      let s ← M.lift (Source.new r)
      pure (ofSource (ofReader y) (ofFixed (min isizeMax (6 * 1024 + W.extra 0)) W.extra 1) s)) :=
  run_eq W (Source_new W y r)

section
variable (W : World σ X Y) [DataSource S X] [Buffer B X] {es : S → Val X Y} {eb : B → Val X Y} {Fits : B → Prop}
  (s : Source S B)

theorem C111_Source_len (hb : BufferOf B eb Fits) :
    run W Text.Source_len [ofSource es eb s] = (do let n ← M.lift (s.len Build.checked); pure (.nat n)) :=
  run_eq W (Source_len W (hb.laws W) s)

theorem C111_Source_is_empty (hb : BufferOf B eb Fits) :
    run W Text.Source_is_empty [ofSource es eb s] = (do let e ← M.lift (s.isEmpty Build.checked); pure (.bool e)) :=
  run_eq W (Source_is_empty W (hb.laws W) s)

theorem C111_Source_capacity (hb : BufferOf B eb Fits) :
    run W Text.Source_capacity [ofSource es eb s] = pure (.nat s.capacity) :=
  run_eq W (Source_capacity W (hb.laws W) s)

theorem C111_Source_buffer (hb : BufferOf B eb Fits) :
    run W Text.Source_buffer [ofSource es eb s] = (do let b ← M.lift s.bufferSlice; pure (.slice b)) :=
  run_eq W (Source_buffer W (hb.laws W) s)

theorem C111_Source_reset :
    runWith W Text.Source_reset [.loc 0 []] [ofSource es eb s] = pure (.unit, [ofSource es eb s.reset]) :=
  runWith_pure (Source_reset W (Ref.cell [] []) s)

theorem C111_Source_set_autofill (v : Bool) :
    runWith W Text.Source_set_autofill [.loc 0 [], .bool v] [ofSource es eb s]
      = pure (.unit, [ofSource es eb (s.setAutofill v)]) :=
  runWith_pure (Source_set_autofill W (Ref.cell [] []) v s)

/-- `BufRead::consume` -/
theorem C111_Source_consume (hb : BufferOf B eb Fits) (n : Nat) :
    runWith W Text.Source_consume [.loc 0 [], .nat n] [ofSource es eb s] = (do
      let s ← M.lift (s.consume Build.checked n)
      pure (.unit, [ofSource es eb s])) :=
  runWith_eq (Source_consume W (Ref.cell [] []) (hb.laws W) n s)

variable {s} (hs : SourceOf W S es) (hb : BufferOf B eb Fits) (hf : Fits s.buffer)
include hs hb hf

theorem C111_Source_fill_requested (n : Nat) :
    runWith W Text.Source_fill_requested [.loc 0 [], .nat n] [ofSource es eb s] = (do
      let (r, s) ← M.lift (s.fillRequested Build.checked n)
      pure (ofIo r, [ofSource es eb s])) :=
  runWith_eq (Source_fill_requested W (Ref.cell [] []) hs.reads (hb.laws W) n s hf)

theorem C111_Source_fill :
    runWith W Text.Source_fill [.loc 0 []] [ofSource es eb s] = (do
      let (r, s) ← M.lift (s.fill Build.checked)
      pure (ofIo r, [ofSource es eb s])) :=
  runWith_eq (Source_fill W (Ref.cell [] []) hs.reads (hb.laws W) s hf)

/-- `io::Read::read` into `&mut v[m..n]`: the items are the first ones of this part of `v`, and their number is returned. -/
theorem C111_Source_read (m n : Nat) (mem : List (Option X)) (cap : Nat) (extra : Nat → Nat) (allocs : Nat) :
    runWith W Text.Source_read [.loc 0 [], .con "SliceMut" [.loc 1 [], .nat m, .nat n]]
        [ofSource es eb s, .vec mem cap extra allocs] = (do
      let (r, s) ← M.lift (s.read Build.checked (n - m))
      pure (ofIo (r.map List.length), [ofSource es eb s, .vec (match r with
        | .ok data => storeAt mem m n (data.map some)
        | .error _ => mem) cap extra allocs])) :=
  runWith_eq (Source_read W (G := fun s v => [s, v]) (fun v => Ref.cell [] [v]) (fun s => Ref.cell [s] []) hs.reads (hb.laws W) s
    hf m n mem cap extra allocs)

/-- `BufRead::fill_buf` -/
theorem C111_Source_fill_buf :
    runWith W Text.Source_fill_buf [.loc 0 []] [ofSource es eb s] = (do
      let (r, s) ← M.lift (s.fillBuf Build.checked)
      pure (ofExcept .slice (fun e => .con "io::Error" [.nat e.code]) r, [ofSource es eb s])) :=
  runWith_eq (Source_fill_buf W (Ref.cell [] []) hs.reads (hb.laws W) s hf)

theorem C111_Source_parse (t : T → Val X Y) (e : E → Val X Y) (f : Val X Y) (p : Parser σ X T E)
    (h : IsParser W f t e p) :
    runWith W Text.Source_parse [.loc 0 [], f] [ofSource es eb s] = (do
      let (r, s) ← s.parse Build.checked p
      pure (ofExcept t (ofStreamError e) r, [ofSource es eb s])) :=
  runWith_eq (Source_parse W (Ref.cell [] []) hs.reads (hb.laws W) t e f p h s hf)

end

end

/-! ### Cases -/

namespace StreamsEx

open BuffersEx (small)

/-- As `BuffersEx.world`, with a closure which is `take(i, 3)`. -/
def world : World Unit UInt8 (List UInt8) :=
  { BuffersEx.world with
    ext := fun k vs =>
      match k, vs with
      | 0, [.con _ [.con _ [.nat m], .slice b]] => do
        let r ← Parsers.take 3 ⟨if m = 0 then .default else .endOfInput, b⟩
        pure (ofResult .slice ofError r)
      | _, _ => M.ub }

theorem reads : UserReads (S := List UInt8) world id := fun _ _ => rfl
theorem nexts : UserNext (J := List UInt8) world id := fun _ => rfl

section
local instance : Build := ⟨true⟩

theorem three : IsParser world (.ext 0) .slice ofError (Parsers.take 3) := by
  intro i
  obtain ⟨m, b⟩ := i
  simp only [apply]
  cases m <;> rfl

/-- A reader which yields two bytes at a time, and a buffer for four. -/
def source (l : List UInt8) (b : FixedSizeBuffer UInt8) (request : Nat) (state : Flags) :
    Val UInt8 (List UInt8) :=
  ofSource (ofReader id) (ofFixed 4 world.extra 1) ⟨⟨l⟩, b, request, state⟩

/-- The buffer before the first read. -/
def empty : FixedSizeBuffer UInt8 := ⟨[none, none, none, none], 0, 0⟩

-- a slice is parsed to its end
example : runWith world Text.SliceStream_parse [.loc 0 [], .ext 0] [ofSliceStream ⟨1, [6, 7, 8, 9]⟩] ()
    = .ok ((.con "Ok" [.slice [7, 8, 9]], [ofSliceStream ⟨4, [6, 7, 8, 9]⟩]), ()) := by
  rw [C111_SliceStream_parse world _ _ _ _ three]
  rfl

example : runWith world Text.SliceStream_parse [.loc 0 [], .ext 0] [ofSliceStream ⟨4, [6, 7, 8, 9]⟩] ()
    = .ok ((.con "Err" [.con "StreamError::EndOfInput" []], [ofSliceStream ⟨4, [6, 7, 8, 9]⟩]), ()) := by
  rw [C111_SliceStream_parse world _ _ _ _ three]
  rfl

-- after the first fill two of three bytes are there
example : runWith world Text.Source_parse [.loc 0 [], .ext 0] [source [7, 8, 9] empty 0 ⟨true, false, true⟩] ()
    = .ok ((.con "Err" [.con "StreamError::Retry" []],
        [source [9] ⟨[some 7, some 8, none, none], 2, 0⟩ 3 ⟨true, false, true⟩]), ()) := by
  refine (congrFun (C111_Source_parse world (.reader id reads) (.fixed 4 world.extra 1) (by decide) _ _ _ _ three) ()).trans ?_
  show Res.bind _ _ = _
  rw [Source.parse_of_fuel 9 rfl]
  rfl

-- the next one reads the third
example : runWith world Text.Source_parse [.loc 0 [], .ext 0]
      [source [9] ⟨[some 7, some 8, none, none], 2, 0⟩ 3 ⟨true, false, true⟩] ()
    = .ok ((.con "Ok" [.slice [7, 8, 9]], [source [] ⟨[some 7, some 8, some 9, none], 3, 3⟩ 3 ⟨false, false, true⟩]), ()) := by
  refine (congrFun (C111_Source_parse world (.reader id reads) (.fixed 4 world.extra 1) (by decide) _ _ _ _ three) ()).trans ?_
  show Res.bind _ _ = _
  rw [Source.parse_of_fuel 9 rfl]
  rfl

-- the reader fails
example : runWith world Text.Source_parse [.loc 0 [], .ext 0] [source [255, 8] empty 0 ⟨true, false, true⟩] ()
    = .ok ((.con "Err" [.con "StreamError::IoError" [.con "io::Error" [.nat 5]]],
        [source [8] empty 0 ⟨true, false, true⟩]), ()) := by
  refine (congrFun (C111_Source_parse world (.reader id reads) (.fixed 4 world.extra 1) (by decide) _ _ _ _ three) ()).trans ?_
  show Res.bind _ _ = _
  rw [Source.parse_of_fuel 9 rfl]
  rfl

-- an iterator and a growing buffer
example : runWith world Text.Source_fill [.loc 0 []]
      [ofSource (ofIterator id) ofGrowing ⟨⟨[1, 2]⟩, .new world.extra, 0, ⟨true, false, true⟩⟩] ()
    = .ok ((.con "Ok" [.nat 2], [ofSource (ofIterator id) ofGrowing
        ⟨⟨[]⟩, ⟨[some 1, some 2, none, none], 4, 2, 0, 0, world.extra, 1⟩, 0, ⟨false, false, true⟩⟩]), ()) := by
  refine (congrFun (C111_Source_fill world (.iterator id nexts) .growing (by decide)) ()).trans ?_
  show Res.bind _ _ = _
  rw [Source.fill_of_fuel (n := 9) rfl]
  rfl

-- reading into `&mut v[1..3]` what is in the buffer
example : runWith world Text.Source_read [.loc 0 [], .con "SliceMut" [.loc 1 [], .nat 1, .nat 2]]
      [source [9] small 0 ⟨false, false, true⟩, .vec [some 0, some 0, some 0] 3 world.extra 1] ()
    = .ok ((.con "Ok" [.nat 1], [source [9] ⟨[some 1, some 2, none, none], 2, 2⟩ 0 ⟨false, false, true⟩,
        .vec [some 0, some 2, some 0] 3 world.extra 1]), ()) := by
  refine (congrFun (C111_Source_read world (.reader id reads) (.fixed 4 world.extra 1) (by decide) 1 2 [some 0, some 0, some 0] 3
    world.extra 1) ()).trans ?_
  rfl

example : run world Text.Source_is_empty [source [] ⟨[some 1, none, none, none], 1, 1⟩ 0 ⟨false, true, true⟩] ()
    = .ok (.bool true, ()) := by
  refine (congrFun (C111_Source_is_empty world _ (.fixed 4 world.extra 1)) ()).trans ?_
  rfl

end

end StreamsEx

end Chomp.Props
