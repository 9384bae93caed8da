# Formal model of chomp 0.2.4 in Lean 4

The source modelled is `/repo` at the pinned commit. It was read as text; nothing was built or run.
All statements about behaviour are therefore statements about the Lean model, and the model is
related to the Rust code by reading only (see "Trusted base").

## 1. Shape of the model

* `Res α` is the outcome of running a piece of Rust: `ok a`, `panic`, `ub` (undefined behaviour:
  exposing uninitialised memory, out of bounds raw copy, `set_len` past the allocation) and `div`
  (runs for ever).
* `M σ α = σ → Res (α × σ)`. `σ` is the state captured by user closures (`FnMut`, interior
  mutability). Threading it everywhere makes "is not called" and "is called once" expressible.
* Slices `&[I]` are `List I`. `Input I` is a mode plus a list. Pointer identity is not modelled.
* A parser is `Input I → M σ (ParseResult I T E)`.
* Rust loops are one generic `loop : (S → M σ (S ⊕ R)) → S → M σ R`, defined by Lean's
  `partial_fixpoint`. Non-termination is `div`, there is no fuel and no bound.
* `From` conversions of errors are explicit function arguments.
* `FromIterator` is a consumer (init, feed which may stop early, finish). `Vec` is the instance that
  never stops early. Repetitions are generic in the `FromIterator` code (`Driver`); `Consumer` is any
  collection without side effects, including those which use `size_hint` or call `next` again after `None`,
  and `Driver.vec` is the `Vec` of the standard library with limited memory (C73). `Machine` is any collection,
  with side effects (C116).
* `usize` is `Nat`. In parsers and combinators, subtractions depend on the build: below zero they
  panic in a debug build and wrap around modulo `2^64` in a release build. The build is an instance
  argument (`Build`); where none is mentioned the debug build is meant, and C81 says that the release
  build does the same. Buffers and streams take a parameter `chk`: `true` is a debug build
  (checked arithmetic, `debug_assert!`), `false` a release build (arithmetic modulo `2^64`).
* Buffers: backing memory is a list of `Option I`; `none` is uninitialised.
* Data sources are state machines returning either an I/O error or (items written, count claimed).

## 2. Trusted base

* Lean 4.33.0 kernel. Axioms allowed: `propext`, `Classical.choice`, `Quot.sound` (they come
  in through `partial_fixpoint`, `simp` and `omega`; Mathlib is not imported). No axioms are added; no `sorry`, `native_decide`,
  `bv_decide`. The per-theorem list is in section 5.
* The correspondence between the Lean definitions and the Rust text (each definition cites lines).
* For the functions of C109 and C110 this correspondence is itself proved, from the text. What is trusted there instead of reading is
  `tools/rust.py`, which parses the Rust text into syntax trees, leaving out types and attributes (where the type decides which
  function is meant, as for `From::from`, the tool has a table, `INFERRED`) and expanding the macros of `src/combinators/macros.rs` (methods of the types which an expansion declares become functions with names like ``Iter of Range::parse_many``), and the interpreter `Rust/Eval.lean`, which says what the syntax
  means. Values are untyped there, moving is copying, and shared references are looked through.
  `FromIterator` is a rule of the interpreter: the collection is a machine (`World.collect`) with any effects, whose requests for `next` and
  `size_hint` run the text of these methods.
* For C110 likewise. Rules of the interpreter are there what `Vec::{with_capacity, reserve, set_len, len, capacity}`, indexing of a
  `Vec`, `ptr::copy`, `Cell` and the crate bitflags do (`vecReserve`, `vecSetLen`, `subslice`, `ptrCopy`, `overlay`; the last three are
  shared with the model), and when that is undefined behaviour. `tools/rust.py` inlines the constants of these files (`CONSTS`), and
  takes `debug_assert!` as `if` of a condition which is whether the build is a debug one.
* For C111 likewise. Rules are there what the flags of `ParserState` do (`contains`, `insert`, `remove`, `|`, on the bits), and what
  `io::Read for &[u8]` does. `tools/rust.py` expands `try!`, where
  `From::from` is the identity, as the types of the errors are the same in all four uses, and writes the `deref` which Rust inserts in `self.buffer[..]` (`DEREF`).
* For C112, `tools/macros.py`, which writes the rules in another notation, and `Rust/MacroRules.lean`, which says how rules are
  matched. It follows rustc's `macro_parser.rs`. Which tokens are known not to begin a fragment depends on the version of rustc; here
  only `,` for expressions, as in old versions (with more of them known, further rules are tried where the expansion fails here). All
  identifiers of rules have one mark; by C107 it does not matter which, if it is not that of the user. What an invocation expands to is
  one expression, with parentheses which are not written.
* For C113 as for C109. Rules are there what `==` of slices (lengths first, then item by item up to the first difference) and derived
  `==` (constructor, then fields in order) do, and what `write!` does, with text between the arguments and `{:?}` of items and slices
  (`Fmt.slice`, shared with the model). A `Formatter` is the text written to it; writing does not fail.
* For C114 as for C109 to C111. `tools/rust.py` writes `http::f` for the functions of the program, knows which number literals are an
  `i32` (`I32`), writes patterns which are bytes or ranges of bytes as guards, and expands `parse!`, where `i@` is the identifier of
  the macro (checked in Lean, `C114_request_block` and the like). What is outside of the program is part of the world: arguments, opening and
  reading files, the standard output, how an `i32` is shown. Printing does not fail. `panic!` does not write to the standard output.
* To check that correspondence, the unit tests of the crate and the examples in its documentation were
  transcribed to the model (`lean/Verif/Tests`; most of them by `tools/tests.py`
  and `tools/macro_tests.py`, which read them as text), and so were the tests in `tests/compile-fail` which are about
  `parse!` (the others are about the type system). All of them hold of the model. They are tests, not proofs, and no property
  rests on them.
* Semantics of the standard library pieces used (`slice::iter().position`, `ptr::copy`,
  `Vec::reserve`, `io::Read for &[u8]`, `bitflags`), written down in the model.
* `Model/Std.lean` (C98) writes down provided methods of the standard library's `io::Read` and `io::BufRead` (`read_until`, `split`,
  `read_exact`, `read_to_end`; `take` and `bytes` in `Model/StdTake.lean`;
  `read_line` and `read_to_string` in `Model/StdText.lean`), which a `Source` inherits. They are not code of /repo: the model follows their documented loops.
* `Model/Float.lean` (C99) writes down the arithmetic of `f32` and `f64` on integral values (IEEE 754, to nearest, ties to even), and that
  the crate `conv` converts `u8` and `i8` to them exactly.

Modelled: `input.rs`, `parse_result.rs`, `parse.rs`, `parsers.rs`, `ascii.rs`,
`combinators/{mod,bounded,macros}.rs`, `buffer/{buffer,data_source,slice,stateful,mod}.rs`,
`macros.rs` (token splitting and denotation), `examples/http_parser.rs`, the parser of `benches/http_bench.rs`, the programs of
`benches/combinators.rs` (C93), and the longer
examples in the documentation (`lib.rs`, `macros.rs`, `parse.rs`) and in `README.md`. Blocks written with `parse!` are
taken from the text as token trees by `tools/programs.py` (C85).

Not modelled: lifetimes and borrow checking; `Debug` of `Input` and of results (printed by `bitflags`; what `Debug` of the others prints
is C95, and which memory it reads C74) and messages of panics other than those of C95; stack overflow (how deep calls are nested is C91); allocation failure (capacity overflow is modelled, and the `Vec` of C73); zero sized item types except for C100; threads (there are none);
type inference inside `parse!`, and items (not variables) of the program named `i` or `l` there, for which there is no hygiene (C107); data sources and iterators which have effects, panic or do not return are in C119 only (with C84 for what is left after a panic).
`Clone` is a copy everywhere except in `Model/Clone.lean` (C106). The operations of number types have no effects in `Model/Ascii.lean`; those of any type are in `Model/Numeric.lean` (C118). Predicates passed to `satisfy`, `take_while` etc. are
pure functions in `Model/Parsers.lean`; with effects they are in `Model/Closures.lean` (C72). Both are
constructors of `Built`, `Productive` and `Twins`.

## 3. Plan per property

| id | modelled by | proof idea |
|----|-------------|------------|
| C01-C03 | `ParseResult.bind`, `Input.ret` | case analysis on the result, monad laws of `M`; coherence hypothesis on error conversions for C03 and a witness that it is needed |
| C04 | `bind`, `then`, `map`, `mapErr`, `inspect` | case analysis; world component shows calls |
| C05, C06 | inductive `Built` over all public parsers and combinators | induction over `Built`; loops by induction on the terminating-run relation |
| C07, C08 | `Built` with the flag `chunkDependent = false` (excludes `peek`, `eof`, `take_remainder`, and `many_till` unless the end is incomplete only where the item parser is) | induction; per primitive list lemmas on prefixes |
| C09 | model evaluated on witnesses | two concrete chunkings per parser |
| C10 | `parseOnly` | unfolding |
| C11-C18 | `Verif/Model/Parsers.lean` | list lemmas against `takeWhile`/`dropWhile`/prefix specs |
| C19-C22 | `option`, `or`, `lookAhead`, `matchedBy` | case analysis; locality from C05 for C22 |
| C23-C26 | `Bounded.many` for each range type | both directions against the relational spec `Reps` (n successive successes) |
| C27 | all `Range`, `RangeTo` impls | same, with the empty range singled out; negations as theorems |
| C28, C29 | `skipMany` | simulation between two loops, equality of outcomes incl. panic/divergence |
| C30 | generic `loop` | measure for termination; no terminating run for divergence |
| C31, C32 | `sepBy`, `sepBy1` with local flag | against a relational grammar |
| C33-C35 | `manyTill` | relational spec, panic condition exact |
| C36 | size hints | invariant along the run |
| C37 | consumers that stop early | run relation with early stop |
| C38 | `Ascii` predicates | kernel evaluation over the whole (finite) domain of bytes; list lemmas for the two parsers |
| C39-C41 | `decimal`, `signed` over `IntTy` (width, sign, checked or wrapping) | induction on digit lists, `Nat.toDigits`-style printer |
| C42, C43 | `SliceStream.parse` | induction over call histories |
| C44-C47 | `FixedSizeBuffer`, `GrowingBuffer` | invariant and abstraction to a queue, induction over operations |
| C48-C50 | `Source` over an abstract lawful buffer | invariant over operation histories and source schedules |
| C51-C53 | retry loop over `Source.parse` | refinement to `SliceStream` using C07/C08; measure on unread data |
| C54, C55 | `reset`, limited `GrowingBuffer` | invariant that blocks every later read; reachable witness |
| C56-C58 | `read`, `fillBuf`, `IteratorDataSource` | from the buffer refinement |
| C59 | `StreamError.eq` | case analysis |
| C60 | checked additions | case analysis; witness through `take` |
| C61 | `Macro.expand`, a rewriting of token trees with the unrolled tables of `macros.rs`; Rust's parsing of `$expr`, `$ty`, `$pat` is a parameter with assumed laws (`Fragments.Lawful`) | tables are windows, a window finds the first separator; soundness and completeness for the documented grammar (`Derives`) by induction, with a linear bound on nesting |
| C62 | `Code.run`, the meaning of the expanded expression | one theorem per operator, on tokens; re-bracketing from these |
| C63 | `Http.request` | equivalence with a grammar (`Spec/Http.lean`), by inversion of each combinator; printer round trip; membership in `Built streaming` and `Productive`, then C51, C69 |
| C64, C65 | `fill`, `consume`, `requestSpace` | unfolding; witnesses by evaluation |
| C66 | the class `Built` with a bound on requests | induction over the construction of the parser, over all runs of its loops |
| C67 | `Source.parse` with nothing left | case analysis on the flags, induction over failing reads |
| C68 | `records`, the loop users write around `Source.parse` with a `FixedSizeBuffer` | invariant of the source between calls, induction over the data left and the reads to come |
| C69 | the class `Productive` | induction over the construction of the parser, loop invariants for the repetitions |
| C70 | `Http.main`; opening the file is left out | simulation by the loop of C68, grammar of C63 |
| C71 | no new code | accumulator homomorphism of the common loop, one turn unfolded; equations between parsers |
| C72 | `Model/Closures.lean`: the parsers taking closures or comparing items, with effectful closures | induction on the list against the relations `Says`, `Walks`; equal to `Model/Parsers.lean` for pure closures |
| C73 | `Driver.vec`, `Consumer`: std `Vec::from_iter` with limited memory, and any collection | invariant capacity <= memory along the loop, simulation by the unlimited vector; run relation `Pulls` |
| C74 | `Model/Derived.lean`: `==`, `Debug`, `deref_mut`, `is_empty` of the buffers | invariant: exactly the first `H` cells are initialised, `H` the largest `populated` so far |
| C75 | the whole library, pairs of parsers written alike but for errors (`Spec/Twins.lean`) | relational reading of the monad; induction on the pair, loops in lock-step, collections cannot tell iterators apart |
| C76 | `parsers.rs`, `combinators` (no new model) | equalities of parsers as functions (`token`/`not_token` up to the value of the error, `Alike true`), by unrolling (C71) and case analysis; replacing one side by the other inside a larger parser is C75 with `Twins.alike`. Laws which run a parser twice are for `σ = Unit`; `C76_effects` is the counterexample with effects. |
| C77 | retry loop around a parser which records its runs, over a source which counts its reads | invariant of the loop relating the last run to the outstanding request; a budget of reads kept by `fill_requested` |
| C78 | loops over `fill` and `parse` with automatic filling off | lock-step simulation with the retry loop, then C51 and C52 |
| C79 | `SliceStream.parse`, `Source.parse` with parsers outside of `Built` | wrapping arithmetic: the new position is the size of the memory minus the length left, modulo 2^64 |
| C80 | all methods of `Source` but `Debug` | weaker invariant of the buffers (`SafeBuffer`): populated cells are initialised, `used` is arbitrary; `request_space` is asked for what is missing only, and then moves nothing if `used` is out of range |
| C81 | `usub` with the build as a parameter (`Build`), all functions which use it | counters are positive where they are decremented (`pre` of the hooks); `Built` in one build implies `Built` in the other, by induction |
| C82 | `Verif/Model/Docs.lean`, with `parse!` expanded | equivalences for each parser, composed from those of `take_while1`, `token`, `string`, `decimal`, `or` |
| C83 | `Source` over related data sources; `Source` as a data source | simulation of all methods by a relation between data sources; `io::Read for Source` satisfies `Delivers`, then C51 |
| C84 | `Model/Unwind.lean`: buffers, data sources, `Source` and `SliceStream` once more, keeping the state at a panic | simulation with the rest of the model (where the source panics it returns an error instead), so that C48 and C80 carry over; both models agree if nothing panics |
| C85 | `Verif/Model/Programs.lean`: the blocks as token trees, written by `tools/programs.py` from the text of /repo; the little Rust around them in `Verif/Spec/Programs.lean` | the expansion is computed; the code it gives is related to the parser statement by statement |
| C86 | `SliceStream.parse` with `many` of `Http.request` | C63, C23 and C42; the requests at the beginning by induction on the length |
| C87 | the flags of `Source` under all its methods; new data as a data source replaced behind the back of the `Source` (`Verif/Spec/End.lean`) | invariant over histories: at the end nothing is waited for; induction on the calls; going on by C51 |
| C88 | the loop of users around `Source::parse` and `SliceStream::parse` (`Verif/Spec/Patient.lean`) | from answer to answer by C51 and C67 on a source and by C42 on a slice; induction on the values |
| C89 | `GrowingBuffer.requestSpace`, all calls of `Source` | Invariant over the sequence of calls: the buffer grows only if it has less than `R` items (`Grown`), and the request stays within `R`. For sessions the request is related to the parser on a prefix of what is still ahead, as in C51. `Vec::reserve` adds an arbitrary surplus per allocation (`extra`), bounded by `X` in the theorems; doubling adds at most `R`. |
| C90 | `Body`: bodies with calls as functions of the functions called; `nested`: calls up to a depth; `Means`: the limit | every body looks at finitely many calls (`Dep`, by induction over `Body`, for loops over their runs), so the limit satisfies the equations; `Built` has a constructor for parsers which agree on any finitely many inputs with a built one, under which its inductions go through |
| C91 | `Guarded`: a syntactic check of bodies with ranks; `Leads`: left recursion | the check implies what `Productive` implies, and that calls are on less input or of lower rank; induction over length and rank. The stack is not modelled: recursion without end is `div`, in Rust it is an abort when the stack overflows |
| C92 | `Peg` with the big-step semantics of Ford (`Matches`), and `Shows` which relates parsers to expressions | the meaning as a relation parametrised by the meaning of nonterminals, up to a depth; each combinator does what the relation says, by C11–C33; then both sides have the same depth. bounded `many_till` by the equations of C71. Not included: `scan` and parsers whose continuation depends on values; `skip_many(n, p)` with a number (see C29) |
| C93 | `Props/Items.lean` on top of C11-C18, C23-C25, C33, C42; `spelled` is the parser with one `token` after the other | the item parser is run along the longest prefix (`MaxPrefix`), then the iff-theorems of the repetitions; `string` by induction on the string |
| C94 | `Props/Mirror.lean`; `Spec/Mirror.lean` has the relations: `Slices`, `Inputs`, `Results`, `Mirror` (two parsers do the same), `Mirrors` (two parsers written down in the same way) | `Lemmas/Mirror.lean`: a relational reading of every function (`BothM` of C75), loops by simulation; streams from C51 |
| C95 | `Display`, `description` and the derived `Debug` of `Error`, `Debug` of `ParseError` and `StreamError`, and the messages of `unwrap`, `expect`, `unwrap_err`, as lists of characters (Model/Fmt.lean). Simplified: no flags of the formatter, the sink does not fail; what `PhantomData` and `io::Error` print are parameters | `Readable` (Spec/Fmt.lean) is closed under the ways of printing: a text is split at the first place where a value can end, by induction on slices; numbers by the inverse of `Nat.toDigits` |
| C96 | derived `PartialEq`, `PartialOrd`, `Ord` and `Hash` of `Input`, `State`/`ParseResult`, `Error`, and `PartialEq` of `ParseError` (Model/Compare.lean). `Ord` of `InputMode` is that of its bits | lexicographic steps preserve total orders (`then_trans`); slices by induction; variants by cases |
| C97 | `Source` over a data source which records, for each read, how much it had delivered before (`Watched`, Spec/Dialogue.lean) | an invariant of the loop of `fill_requested` (field `below` of `FillRun`), carried through `parse` and the retry loop; requests of library parsers are bounded by C07 and C08; induction on the messages |
| C98 | `read_until`, `split`, `read_exact`, `read_to_end`, `take`, `bytes`, `read_line` and `read_to_string` of the standard library (Model/Std.lean, Model/StdTake.lean, Model/StdText.lean, where the check for UTF-8 is any function; not code of /repo) over the model of `Source` | strong induction on outstanding I/O errors and data; one lemma for each of `fill_buf`, `consume` and `read` (`Move`). With a limit (`Lemmas/Limit.lean`): the same induction over the items which the memory can still take (`reachable`) |
| C99 | `decimal` and `signed` over `FloatTy.num` (`Model/Float.lean`: IEEE 754 rounding to nearest even, on integers) | Rounding is proved to be the unique nearest number. Fold over the digits with the invariant that the true value times (1 ± 2^-p)^(2k) bounds the result; Bernoulli's inequality. Concrete witnesses for what is not exact and not in order. The ranges of f32 and f64: the bound applied to a prefix which is just large enough, and the fold does not decrease |
| C100 | `ZeroBuffer`: the code of `GrowingBuffer` with `Vec::capacity() = usize::MAX` | it is a lawful buffer without room, so what is proved about all lawful buffers applies; induction over histories, and over the number of I/O errors for the loop |
| C101 | `wellFormed`: an executable check on grammars, by rounds over sets of nonterminals (Spec/WellFormed.lean) | a set which only shrinks (grows) is stable after as many rounds as there are names; the rounds give the ranks; parsers written like guarded expressions are `Guarded` (induction over `Shows`), so C91 applies, and with C92 every expression has an outcome. Conversely any ranking is found, because the computed set of consuming nonterminals is the greatest |
| C102 | retry loop and `values` loop on `Source` (Spec/Values.lean), grammars of C92 with the check of C101 | C51 relates the retry loop to one run on all of the data, C92 relates that run to the grammar, C101 says that there is an outcome; induction over the number of items ahead for the loop |
| C103 | the same model; rules with values, their big-step meaning and the correspondence of parsers and rules are in Spec/Rules.lean; closures whose value depends on earlier calls have no rule | the meaning of a rule is rewritten as a relation between inputs and outcomes which follows the structure of the rule, as a least fixed point for the nonterminals; induction over `Follows` shows that each combinator has the corresponding relation, fixed point induction (`Means`) gives one direction and induction over the number of unfoldings the other; C51 and C91 for streams |
| C104 | the same model with closures which change the state (`σ`), of which `m` reads a counter; the rules for bounds are in Spec/Work.lean. Time and memory themselves are not modelled: only calls are counted | induction over `Work`: each repetition is a loop with a potential function (the items which are left plus one, times the bound for one round); C77 for the runs in a retry loop; induction over the depth of nested calls (`nested`) for recursion; unrolling (C71, C90) for the exact numbers of calls |
| C105 | the same model; formats are relations between values and texts (Spec/Printed.lean), `ReadsBack` and `Refuses` say what the parser does on them | one theorem for each function, from the exact descriptions C10–C40; the lists by induction over the list of values; recursion by induction over the depth of values; streams from C51, C68 and C88. Programs: Props/PrintedPrograms.lean |
| C106 | Model/Clone.lean: the four parsers which call `clone`, with `clone` an arbitrary computation | unfolding, induction over the slice for `take_till`; then they are terms in `Built` |
| C107 | `Verif/Model/Hygiene.lean`: the expansion with the input and the parameters of the closures, identifiers with marks, and its value in a scope | induction over the code: the value is that of `Code.run` for the variables with the mark of the program; witness that it would not be without marks |
| C108 | closures called by parsers for which the next item decides: all assembled from ret, err, bind, then, map, map_err, inspect, any, satisfy, token, not_token, take_while, take_while1, eof, or, option, many, many1, skip_many, skip_many1, sep_by, sep_by1, many_till (into a Vec), matched_by, calls and anything of which it is known | Verif/Spec/Predictive.lean: for each parser the items it may begin with, those it may go back to, and three constants; amortised induction over the text (`AsSaid`), the repetitions through their equations (C71), recursion through depths of nesting (C90); the condition is not met by the exponential example of C104 |
| C109 | `Rust/Text.lean`: syntax trees of the functions, written from /repo by `tools/rust.py`; `Rust/Eval.lean`: an interpreter for the part of Rust they are in | the interpreter is a `partial_fixpoint` in the same monad as the model plus early exits and cells for `mut` variables; per function symbolic evaluation by `simp` and case analysis, with induction for `position`, `fold` and the loop of `string`; for functions with `mut` variables the equations are about the cells (`Rust/Scan.lean`); loops are related to the model's turn by turn (`Rust/Loops.lean`); the iterators of `many`, `many_till` and `sep_by` live in cells of the interpreter, and what the collection does to them is related to the model call by call (`Rust/Cells.lean`) |
| C110 | as C109, for `src/buffer/buffer.rs` and `src/buffer/data_source.rs`; the interpreter has rules for `Vec` (memory with uninitialised items, capacity, an allocator which yields more than asked for), `Cell`, `ptr::copy`, `&mut v[a..b]` and writing to it | `Rust/Places.lean`: addresses of fields of structs in memory, with what reading and writing them does to the whole; per function symbolic evaluation by `simp`; the loop of `IteratorDataSource::read` by induction on the room left. `Buffer::is_empty` is in C113; items have one byte, as in `Model/Buffer.lean` |
| C111 | as C110, for `src/buffer/stateful.rs`, `src/buffer/slice.rs` and `StreamError::from` of `src/buffer/mod.rs`; the interpreter has rules for bitflags, `while`, `try!` and `io::Read for &[u8]`. A `Source` is over any buffer and data source of `BufferOf` and `SourceOf`: both buffers of the crate; a data source of the user, `ReadDataSource` and `IteratorDataSource` | `Rust/Laws.lean` says what a stream needs of a buffer, and that the text of both buffers has it; `Rust/Stateful.lean` does each function once, for any such buffer; the loop of `fill_requested` is unfolded along the loop of the model, with the invariant that lengths are a `usize`. `StreamError::eq` is in C113; buffers of the user are not covered |
| C112 | `Rust/MacroText.lean`: the rules as data, written from /repo by `tools/macros.py`; `Rust/MacroRules.lean`: how rules of `macro_rules!` are matched (all places in parallel, no way back from a fragment) and expanded; how Rust parses fragments in the course of an expansion is a parameter with stated laws (`Extends`, `Spec/MacroText.lean`, with a function which has them); `text` writes the expression of the model (`Exp`) as token trees | per kind of invocation, which rule applies and what it gives (`Rust/MacroLemmas.lean`); then by induction on the limit both ways between the text and `expand` (`Rust/MacroExpand.lean`, `Rust/MacroTop.lean`), combined with C61 and C107 |
| C113 | as C109, for `StreamError::eq`, the provided `Buffer::is_empty`, and `fmt` and `description` of `Error` with and without `verbose_error`; the interpreter has rules for string literals, `write!` and derived `==` | `Rust/Rest.lean`: case analysis and `simp` for `==`, induction on slices; for text, lemmas over any literal, so that no long literal is unfolded but in the last step |
| C114 | as C109 to C111, for every function of `examples/http_parser.rs`; the interpreter has rules for `println!`, `env::args().nth`, `File::open`, `expect`, `i32` and byte patterns; the tool's expansion of the `parse!` blocks is compared, by `rfl`, to that of the macro's text on the token trees of C85 (`Spec/HttpSyntax.lean`, `C114_request_block` and the like) | `Rust/Http.lean`: a `Runs` calculus, one lemma for each call in a block; `Rust/HttpMain.lean`: the loop of `main` as a simulation of the model's, with the invariant that the buffer's length fits; `Rust/HttpUp.lean`: the model does the same for every captured state and build, so that C63 and C70 apply |
| C115 | `Model/Convert.lean`: `bind`, `then`, `sep_by` and `sep_by1` with `From` an arbitrary computation | equal to the functions without conversion after `map_err`, by case analysis; then C31, C32 and `Built` apply. The lemmas on the text (`Rust/Results.lean`, `Rust/Repeat.lean`) are stated for any conversion, those of C109 are instances |
| C116 | `Model/Machine.lean`: `FromIterator` with effects, a state machine which asks for `next`, `size_hint`, or an effect on the captured state; `sep_by` and `sep_by1` with such a collection (the other functions are generic in `Driver`) | `Spec/Filling.lean` says what a session of the collection and the parsers is; outcome iff session, both ways, for every outcome but divergence (`Lemmas/Machine.lean`: induction on the turns of the collection's loop, with an invariant on the iterator's counters). The lemmas on the text (`Rust/Many.lean`, `Rust/Till.lean`, `Rust/Repeat.lean`) are stated for these collections |
| C117 | nothing new: `Model/Stream.lean` is generic in `Buffer` | `Spec/Own.lean`: the laws of a buffer (`OwnBuffer`), weaker than `LawfulBuffer`. The loop of `fill_requested` by induction on what is missing from the request, `read ≤ len` as invariant against overflow; the retry loop by induction on the items and errors left in the source, as for C51 (`Lemmas/Own.lean`). Absence of undefined behaviour by invariants of the loops, without any law. A buffer which reads until it is full, and is not lawful, is the example; two which break the laws are the counterexamples |
| C118 | `Model/Numeric.lean`: `to_decimal`, `decimal` and `signed` for a type whose operations are arbitrary computations | `Spec/Numeric.lean` is a calculator with a stack; the keys for a run of digits are written down, and the fold over the digits is shown to press them, by induction. Values by induction with any relation the operations keep. `decimal` is `map` of `take_while1`, so `Built` applies. The lemmas on the text (`Rust/Ascii.lean`) are stated for such types; those of C109 are an instance |
| C119 | `Model/Live.lean`: `DataSource::read` and `Iterator::next` as arbitrary computations on the state of the closures, and the functions which call them: `IteratorDataSource::read`, `ReadDataSource::read`, `fill` of both buffers, `fill_requested`, `fill`, `read`, `fill_buf`, `parse` | `Spec/Live.lean` defines chains of reads threading the state (`ReadsTo`), reads which fail at the end of such a chain (`Fails`), and buffers whose `fill` calls `read` once (`OneRead`, an instance for both buffers). `Lemmas/Live.lean` compares a source with a source without effects whose own state contains the shared one, so that the theorems on `Source` (C46, C48, C49) apply; the comparison of the loops is by induction on their runs, in both directions, as either may not end. `C119_pure` shows that nothing has changed for sources without effects. Proved for all sources, states and parsers |
| C120 | sources get the cells of the slice instead of its length (`Model/Look.lean`: `fill` of both buffers); `Spec/Look.lean` has the slice, what is stored, and histories. Memory contains nothing but what was stored: an invariant preserved by `fill`, `request_space` (copying, `set_len`) and `consume`. The queue follows from the laws of the buffers with a source which has the one answer. That reading a cell never written is undefined behaviour is not part of the model: `none` is shown to the source |

Cannot be expressed: the linear-type discipline of `Input` (that user code cannot duplicate or drop
it) and borrow lifetimes are properties of Rust's type checker, and have no counterpart here.

## 4. Disagreements found between documentation and code

Each is a theorem; the ids refer to section 3.

1. `many_till(..n, ..)` reaches `unreachable!()` when the end parser matches early (C35).
2. `many_till(n..n, ..)`, n >= 1, reaches `unreachable!()` too (C27).
3. `many(n..n, p)`, n >= 1, is always incomplete; `skip_many(n..n, p)` succeeds with n-1 matches (C27).
4. `skip_many(n, p)` succeeds early if p reports `Incomplete(0)` (C29).
5. Bounded `many_till` reports `Incomplete(1)`, even at the end of input, when the limit is hit (C34).
6. A `FixedSizeBuffer` smaller than a request signals a false end of input (C50).
7. A limited `GrowingBuffer` over its limit refuses to reclaim space and truncates the stream (C55), also for `read_until`, `split`, `read_exact`, `read_to_end`, `take` and `bytes` (C98).
8. `fill_buf` on a fresh `GrowingBuffer` signals EOF without reading (C57).
9. `reset()` turns automatic filling off (C54).
10. `eof`, `peek`, `take_remainder`, `many_till` depend on chunk boundaries (C09).
11. `signed(decimal)` cannot parse `iN::MIN` in checked builds (C41).
12. `size_hint` lower bounds are not lower bounds (C36).
13. Collections that stop early make `many` incomplete (C37).
14. `Incomplete` arithmetic can overflow `usize` (C60).
15. `DataSource` is a safe trait, but an implementation returning a wrong count causes undefined
    behaviour in both buffers (C64).
16. `consume` beyond `len()` followed by `request_space` on a `GrowingBuffer` is undefined behaviour in
    release builds, through safe methods only (C65).
17. In a release build, an overflowing request makes a retry loop over a `Source` spin forever (C53).
18. An exhausted `Source` which has not noticed its end runs the parser on an empty slice, where a
    `SliceStream` says `EndOfInput` (C67).
19. `>>` in the type of `ret @ ..`/`err @ ..`, or in the expression after `ret`, `err` or `->`, is taken
    for the operator, so `ret @ Vec<Vec<u8>>, () : e` fails to expand (C61).
20. A `;` at the end of a `parse!` block is accepted although the grammar does not have it (C61).
21. The HTTP example panics on a request of more than 6 KiB, and its counter is an `i32` (C70).
22. `count(n, p)` reserves memory for `n` items after the first success, so a large `n` taken from the input
    aborts or panics, although the input is short (C73).
23. The derived `==` and `Debug` of the buffers read uninitialised memory, through safe methods only, and `==`
    compares consumed items (C74).
24. `verbose_error` changes more than the error value: the position reported by a failed `string`, and with it where
    a stream goes on after the error (C75).
25. A parser which leaves a slice from elsewhere (`Input::replace` is safe) makes a release build report success and hand
    out consumed items again, or panic at each later call (C79).
26. `parse_ip` of the documentation of `parse!` panics on `ip:192.168.0.256;` in debug builds and yields 192.168.0.0 in release builds (C82).
27. Items which an iterator has yielded in a `read` in which it panics later are lost: they are in the buffer's memory, but
    not counted, and the next `fill` overwrites them (C84).
28. The end of the input is remembered even if it was none. After a request larger than a `FixedSizeBuffer`, or an end which was
    temporary, `parse` never reads again, and ends with `EndOfInput` though there are items left; `read` and `fill_buf`
    read them, but `parse` takes them for the last ones. `reset` alone, which is documented as useful when more data has
    been made available, turns automatic filling off; it takes `set_autofill(true)` as well (C87, C54).
29. The documentation of `unwrap` (src/parse_result.rs:282) says that the message is `… on an error: Expected (98)`, with a space. The
    derived `Debug` prints `Expected(98)`, as the documentation of `expect` has it; and without the feature `verbose_error` the message
    is another one altogether, although the example is compiled in both builds. See the examples of C95.
30. `decimal::<f32>` and `decimal::<f64>` round after each digit. Integers which the type has are read as others (186731152 as 186731168),
    and a larger number may be read as a smaller one (167772169 and 167772170) (C99).
31. `GrowingBuffer` does not work with items which have no size. `Vec::capacity()` is `usize::MAX` for them, so `request_space` never
    sets the length, and `fill` hands out an empty slice: every `Source` over such a buffer is at its end (C100).
32. The rules for the use of the macro itself can be reached from outside: `parse!{@TERM(x) ret 1}` expands to `x.ret(1)`,
    which the documentation does not mention (C112_internal_witness).
33. `signed` converts 1 before it looks at the input, also when a sign follows or when there is no input yet: its arguments to `option` are evaluated first. With a number type whose conversions do something this happens once for each attempt, so that it depends on the chunks of a stream (C118_signed, C118_signed_again). With integers and floating point numbers it cannot be seen.
34. `ReadDataSource` hands the slice of the buffer to any `io::Read`, which may read from it in safe code; at first it has
    never been written (C120_fixed, C120_growing_first), and later shows items delivered before (C120_left_over). The rule
    in the documentation of `DataSource` binds implementations of `DataSource` only.

## 5. Axioms per theorem

Written by `tools/axioms.py` from `#print axioms`, for the 1004 theorems of MANIFEST.json.
No other axiom occurs; in particular neither `sorryAx` nor `Lean.ofReduceBool`.

**no axioms** (78 theorems):

C04_bind_error, C04_bind_incomplete, C04_then_error, C04_then_incomplete, C04_then_is_bind, C04_map, C04_map_err, C04_from_result, C09_peek, C11_any, C11_peek, C19_option_ok, C19_option_err, C19_option_incomplete, C19_option_crash, C20_or_ok, C20_or_err, C20_or_incomplete, C20_or_crash, C21_look_ahead_ok, C21_look_ahead_err, C21_look_ahead_incomplete, C22_matched_by_err, C22_matched_by_incomplete, C36_lower_bound_wrong, C37_option_stops, C38_classes, C38_relations, C51_new, C54_reset, C54_autofill, C57_consume, C57_consume_over, C59_values, C64_uninitialised, C64_too_many_release, C72_satisfy, C72_satisfy_with, C72_token, C72_map, C72_map_err, C74_is_empty, C76_effects, C78_new, C83_from, C83_read_source, C83_iterator, C84_agree_consume, C84_consume, C84_agree_slice, C84_slice, C84_agree_reader, C85_bench, C94_graph, C95_readable, C95_display_slices, C95_expect_incomplete, C105_only, C105_weaken, C105_ret, C105_any, C105_map, C105_map_err, C105_or, C105_refuses_weaken, C105_refuses_err, C105_refuses_any, C105_refuses_bind, C105_refuses_map, C105_refuses_or, C105_declines, C106_peek, C106_peek_next, C115_function, C117_new, C119_buffers, C120_blind, C120_io_read.

**`Quot.sound`** (21 theorems):

C10_parse_only, C20_or_err_neutral, C20_or_ret, C20_option_is_or, C21_look_ahead_idem, C76_any, C76_satisfy_with, C76_peek_next, C76_or_self, C105_option, C105_refuses_first, C106_satisfy_with, C106_take_till, C106_composed, C106_copy, C115_bind, C115_then, C115_map_err, C115_left_identity, C115_right_identity, C115_associativity.

**`propext`** (54 theorems):

C04_inspect, C04_inspect_counts, C04_unwrap, C09_take_remainder, C11_satisfy, C11_satisfy_with, C11_token, C11_not_token, C16_scan, C16_scan_none, C16_scan_total, C17_string_match, C18_take_remainder, C19_option_never_errors, C22_matched_by_ok, C22_matched_by_longer, C38_space, C38_digit, C59_io, C59_injective, C65_growing, C72_take_while, C72_take_till, C72_scan, C72_run_scanner, C76_token, C76_not_token, C84_agree_iterator, C84_iterator_loses, C95_slices, C95_display, C95_expect, C95_token, C96_errors, C96_partial_cmp, C98_up_to, C105_satisfy, C105_satisfy_with, C105_token, C105_not_token, C105_string, C105_scan, C105_take_remainder, C105_bind, C105_inspect, C105_matched_by, C105_refuses_satisfy, C105_refuses_token, C105_refuses_not_token, C106_agree, C107_empty, C107_capture_witness, C112_internal_witness, C113_text_injective.

**`Quot.sound`, `propext`** (97 theorems):

C01_left_identity, C01_left_identity_then, C02_right_identity, C02_right_identity_conv, C03_associativity, C03_associativity_same, C03_coherence_needed, C03_parser_associativity, C04_map_id, C04_map_comp, C04_map_is_bind, C10_parse_only_ok, C12_take_ok, C12_take_short, C13_take_while, C13_take_while_iff, C14_take_while1_empty, C14_take_while1_err, C14_take_while1, C15_take_till, C15_take_till_none, C15_take_till_take_while, C17_string_short, C17_string_mismatch, C17_string_iff, C20_or_assoc, C21_look_ahead_consumes_nothing, C36_upper_many, C36_upper_many_till, C38_skip_whitespace, C38_skip_whitespace_all, C39_value, C39_checked, C39_wrapping, C39_wraps_unique, C39_incomplete, C39_error, C42_end_of_input, C42_incomplete, C42_crash, C46_legal, C58_read, C58_list, C59_eq, C59_symm, C59_trans, C59_refl, C59_range, C60_slice, C60_slice_witness, C72_asked, C72_pure, C74_eq_sizes, C76_scan, C76_or_factor, C76_look_ahead_self, C79_slice, C81_take, C81_string, C81_string_closure, C81_matched_by, C82_name, C85_fragments, C93_string, C93_string_fails, C93_string_waits, C95_debug, C95_verbose, C95_description, C95_panics, C95_errors, C95_take, C96_slices, C96_identity, C98_pieces, C104_degree, C104_degree_exact, C105_parse_only, C105_unambiguous, C105_take, C105_take_while, C105_take_while1, C105_take_till, C105_skip_whitespace, C105_then, C105_followed, C105_refuses_take_while1, C105_refuses_decimal, C105_refuses_string, C117_crate, C118_decimal, C118_none, C118_value, C119_iterator, C119_honest, C120_growing_first, C120_left_over.

**`Classical.choice`, `Quot.sound`, `propext`** (754 theorems):

C05_remainder, C05_error, C06_no_panic, C07_stable, C07_crash, C08_positive, C08_truthful, C09_eof, C09_many_till, C12_take_add, C18_eof, C18_then_eof, C22_built, C22_no_panic, C23_many, C23_many_ok, C23_many_never_errors, C23_many_incomplete, C24_many_from, C24_many1, C24_at_least, C24_many_from_zero, C25_count, C25_count_ok, C25_count_zero, C25_count_fails, C26_many_range, C26_many_to, C26_in_range, C26_limit, C27_empty_is_count, C27_empty_skip_is_count, C27_empty_till_is_count, C27_zero_is_one, C27_panics_only_if, C27_reversed, C27_not_reversed, C27_empty_many, C27_empty_after, C27_zero, C27_empty_till, C27_empty_till_never, C28_skip_many, C28_skip_many_unbounded, C29_incomplete_zero, C30_diverges_iff, C30_terminates, C30_bounded_terminates, C30_non_consuming, C30_many, C30_skip_many, C30_many_till, C30_sep_by, C31_sep_by, C31_sep_by_ok, C31_never_errors, C31_empty, C32_sep_by1, C32_first_fails, C32_first_succeeds, C32_at_least_one, C33_many_till, C33_many_till_ok, C33_many_till_error, C33_many_till_incomplete, C34_many_till_from, C34_many_till_exactly, C34_many_till_range, C34_in_range, C34_no_panic, C34_end_not_called, C34_limit, C35_many_till_to, C35_panics, C35_panics_at_once, C35_success, C35_success_at, C36_lower_range, C36_lower_from, C36_lower_exactly, C36_lower_till_range, C36_lower_till_from, C36_lower_till_exactly, C36_lower_full, C36_lower_to, C36_lower_till_full, C36_lower_till_to, C37_many, C37_count, C37_at_least, C37_bounded, C37_many_till, C37_sep_by, C40_decimal, C40_signed, C40_plus, C40_error, C40_incomplete, C40_any_parser, C41_checked, C41_wrapping, C41_exact, C42_end_only, C42_data, C42_error, C42_history, C43_parse_only, C43_sequence, C43_sequence_back, C44_create, C44_fifo, C44_consume_over, C45_fifo, C45_capacity, C45_limit, C45_panic, C46_debug, C46_start, C46_fixed, C46_source_parse, C46_source_ops, C47_growing, C47_fixed, C47_limited, C47_limited_witness, C48_buffer, C48_new, C48_parse, C48_parse_frame, C48_parse_step, C48_step, C48_history, C48_stream, C49_fill, C49_no_read, C49_autofill, C49_new, C50_real_end, C50_growing, C50_fixed, C50_false_end, C50_witness, C51_retry, C51_chunking, C51_fits, C51_growing, C51_fixed, C52_call, C52_crash, C52_calls, C53_retry, C53_progress, C53_terminates, C53_spin, C53_zero, C53_overflow, C54_no_read, C54_stuck, C55_truncated, C55_end_of_input, C55_witness, C56_read, C56_no_read, C56_end, C56_fixed, C57_fill_buf, C57_full, C57_growing, C57_fixed, C57_growing_used, C60_exact, C60_source, C60_source_witness, C61_complete, C61_sound, C61_trailing_semicolon, C61_unambiguous, C61_parse, C61_unrolled, C61_unrolled_depth, C61_limit, C61_split_then, C61_split_or, C61_split_skip, C61_split_statement, C61_no_operator, C61_let_not_last, C61_last_statement, C61_shr_in_type_witness, C62_functional, C62_total, C62_ret, C62_err, C62_inline, C62_named, C62_parens, C62_operand_skip, C62_operand_or, C62_operand_then, C62_then, C62_skip, C62_or, C62_let, C62_let_typed, C62_action, C62_block, C62_then_assoc, C62_skip_assoc, C62_or_assoc, C62_action_is_then, C63_total, C63_grammar, C63_unambiguous, C63_well_formed, C63_print, C63_round_trip, C63_reprint, C63_retry, C64_too_many_debug, C65_fixed, C66_request, C67_empty, C67_witness, C68_records, C68_rejects, C68_returns, C68_collect, C68_chunking, C68_fits, C69_returns, C69_defined, C69_consumes, C69_empty, C69_positive, C69_total, C69_parse_only, C69_retry, C70_counts, C70_panics, C70_long, C70_overflow_debug, C70_overflow_release, C70_returns, C70_exact, C71_keeps_mode, C71_many, C71_many1, C71_many_from, C71_count, C71_many_range, C71_many_to, C71_sep_by1, C71_sep_by, C71_skip_many, C71_many_till, C71_many_till_from, C71_many_till_exactly, C71_many_till_range, C71_skip_many_bounded, C71_many_till_differs, C72_take_while1, C72_string, C73_any_collection_till, C73_many, C73_many_input, C73_many_till, C73_huge, C73_exhausted, C73_exhausted_till, C73_any_collection, C74_deref_mut_fixed, C74_deref_mut_growing, C74_eq_true, C74_eq_spurious, C74_eq_new, C74_debug, C74_debug_growing, C75_alike, C75_parse_only, C75_source, C75_slice, C75_resume, C75_http, C76_take_till, C76_take_while, C76_take_while1, C76_matched_by, C76_many, C76_sep_by, C76_skip_many, C76_count, C77_recorded, C77_runs, C77_count, C77_reads, C77_reads_once, C78_fill_first, C78_parse_first, C78_fill_first_agrees, C78_parse_first_agrees, C78_calls, C79_source, C79_fixed, C79_growing, C80_fixed, C80_growing, C81_usize, C81_many, C81_skip_many, C81_many_till, C81_sep_by, C81_sep_by1, C81_assembled, C81_matched_by_assembled, C81_http, C82_missiles, C82_ip, C82_ip_panics, C82_log, C82_log_waits, C82_streaming, C83_new, C83_new_retry, C83_alike, C83_reader_returns, C83_layer, C83_delivers, C83_nested, C84_agree_fill, C84_agree_read, C84_agree_fillBuf, C84_agree_parse, C84_fill, C84_read, C84_fillBuf, C84_parse, C84_parse_again, C84_parse_refill, C84_step, C84_history, C84_fixed, C84_growing, C84_safe_fixed, C84_safe_growing, C84_iterator_loses_item, C85_end_of_line, C85_http_version, C85_request_line, C85_message_header_line, C85_message_header, C85_request, C85_bench_requests, C85_name, C85_name_typed, C85_missiles, C85_parse_ip, C85_log_severity, C85_double, C85_my_parser, C85_readme, C86_many, C86_succeeds, C86_stream, C86_printed, C86_single, C87_no_read, C87_stays, C87_ends, C87_fill_ends, C87_reached, C87_sticky, C87_unnoticed, C87_resume, C87_fill, C87_witness, C88_values, C88_unique, C88_slice, C88_source, C88_same, C88_growing, C88_record, C88_requests, C89_settled, C89_bound, C89_allocations, C89_limit, C89_steady, C89_session, C89_records, C89_requests, C90_exists, C90_equation, C90_least, C90_assembled, C90_remainder, C90_no_panic, C90_stable, C91_returns, C91_consumes, C91_defined, C91_depth, C91_unique, C91_left, C91_depth_reached, C92_deterministic, C92_success, C92_failure, C92_endless, C92_safe, C92_parse_only, C92_streaming, C92_decimal, C92_signed, C92_expressible, C93_take_while, C93_take_while1, C93_take_till, C93_take, C93_take_remainder, C93_benches, C94_mirrors, C94_parse_only, C94_slice, C94_source, C94_renamed, C94_positions, C94_collection, C94_vec, C94_named, C94_pure, C94_equality, C95_integers, C95_parse_error, C95_stream_error, C95_unwrap, C95_unwrap_err, C96_order, C96_kinds, C96_equal, C96_hash, C96_hash_tells, C96_incomparable, C97_parse, C97_fill, C97_read, C97_fill_buf, C97_none, C97_retry, C97_asks, C97_built, C97_dialogue, C98_read_until_limited, C98_split_limited, C98_used_up, C98_read_exact_limited, C98_read_to_end_limited, C98_read_until, C98_split, C98_read_exact, C98_read_exact_any, C98_read_to_end, C98_read_to_end_any, C98_then_parse, C98_growing, C98_read_until_growing, C98_split_growing, C98_take, C98_take_any, C98_bytes, C98_bytes_any, C98_take_limited, C98_bytes_limited, C98_read_line, C98_read_line_growing, C98_read_to_string, C98_read_to_string_any, C99_round, C99_decimal, C99_exact, C99_print, C99_range, C99_signed, C99_inexact, C99_order, C100_history, C100_parse, C100_end, C101_returns, C101_consumes, C101_depth, C101_total, C101_parse_only, C101_complete, C102_retry, C102_end, C102_values, C102_growing, C102_growing_values, C103_deterministic, C103_success, C103_failure, C103_endless, C103_safe, C103_parse_only, C103_streaming, C103_decimal, C103_signed, C103_expressible, C103_returns, C103_retry, C103_values, C104_bound, C104_parse_only, C104_nested, C104_attained, C104_recursive, C104_recurrences, C104_exponential, C104_factored, C104_stream, C105_stream, C105_records, C105_fixed, C105_eof, C105_decimal, C105_signed, C105_many, C105_many_from, C105_many1, C105_count, C105_sep_by, C105_sep_by1, C105_many_till, C105_skip_many, C105_recursive, C105_refuses_many1, C105_refuses_sep_by1, C105_numbers, C105_sexp, C105_sexp_unambiguous, C105_sexp_stream, C106_built, C107_hygienic, C107_parse, C107_irrelevant, C108_holds, C108_linear, C108_work, C108_success, C108_recursive, C108_needed, C108_lists, C108_lists_linear, C108_lists_attained, C109_input_new, C109_Input_new, C109_Input_ret, C109_Input_err, C109_Input_incomplete, C109_Input_from_result, C109_Input_clone, C109_Input_buffer, C109_Input_replace, C109_Input_is_last_slice, C109_bind, C109_then, C109_map, C109_map_err, C109_inspect, C109_unwrap, C109_expect, C109_unwrap_err, C109_parse_only, C109_any, C109_satisfy, C109_satisfy_with, C109_token, C109_not_token, C109_peek, C109_peek_next, C109_take, C109_take_while, C109_take_while1, C109_take_till, C109_scan, C109_run_scanner, C109_take_remainder, C109_string, C109_eof, C109_option, C109_or, C109_matched_by, C109_look_ahead, C109_skip_many, C109_skip_many1, C109_bounded_skip_many, C109_bounded_many, C109_count, C109_many, C109_many1, C109_bounded_many_till, C109_many_till, C109_sep_by, C109_sep_by1, C109_collect, C109_classes, C109_skip_whitespace, C109_digit, C109_decimal, C109_signed, C110_ReadDataSource_new, C110_ReadDataSource_into_inner, C110_IteratorDataSource_new, C110_IteratorDataSource_into_inner, C110_ReadDataSource_read, C110_IteratorDataSource_read, C110_Fixed_with_size, C110_Fixed_new, C110_Fixed_deref, C110_Fixed_deref_mut, C110_Fixed_len, C110_Fixed_capacity, C110_Fixed_consume, C110_Fixed_request_space, C110_Fixed_fill, C110_Fixed_fill_iter, C110_Fixed_fill_read, C110_Growing_with_limit, C110_Growing_new, C110_Growing_deref, C110_Growing_deref_mut, C110_Growing_len, C110_Growing_capacity, C110_Growing_consume, C110_Growing_request_space, C110_Growing_fill, C110_Growing_fill_iter, C110_Growing_fill_read, C111_StreamError_from, C111_SliceStream_new, C111_into_stream, C111_SliceStream_len, C111_SliceStream_is_empty, C111_SliceStream_parse, C111_Source_with_buffer, C111_Source_from_read, C111_Source_from_iter, C111_Source_new, C111_Source_len, C111_Source_is_empty, C111_Source_capacity, C111_Source_buffer, C111_Source_reset, C111_Source_set_autofill, C111_Source_consume, C111_Source_fill_requested, C111_Source_fill, C111_Source_read, C111_Source_fill_buf, C111_Source_parse, C112_parse, C112_parse_only, C112_grammar, C112_grammar_only, C112_parser, C112_parser_only, C112_meaning, C113_StreamError_eq, C113_StreamError_eq_error, C113_Buffer_is_empty, C113_Error_fmt, C113_Error_fmt_terse, C113_Error_description, C113_Error_description_terse, C114_is_token, C114_is_horizontal_space, C114_is_space, C114_is_not_space, C114_is_end_of_line, C114_is_http_version, C114_end_of_line, C114_http_version, C114_request_line, C114_message_header_line, C114_message_header, C114_request, C114_reads, C114_main, C114_counts, C114_panics, C114_overflow, C114_no_argument, C114_not_opened, C114_end_of_line_block, C114_http_version_block, C114_request_line_block, C114_message_header_line_block, C114_message_header_block, C114_request_block, C115_sep_map_err, C115_sep_function, C115_sep_by, C115_discarded, C115_once, C115_built, C115_sep_built, C115_text, C115_sep_text, C116_many, C116_many_till, C116_sep_by, C116_collect, C116_release, C116_items, C116_log, C116_text, C117_fill, C117_read, C117_fillBuf, C117_parse, C117_parse_step, C117_step, C117_history, C117_stream, C117_retry, C117_chunking, C117_returns, C117_parse_returns, C117_terminates, C117_safe, C117_needed, C118_keys, C118_signed, C118_signed_first, C118_signed_value, C118_function, C118_built, C118_signed_built, C118_text, C118_signed_again, C119_fill, C119_no_read, C119_read, C119_fillBuf, C119_autofill, C119_parse, C119_parse_stops, C119_parse_step, C119_step, C119_history, C119_pure, C120_fixed, C120_growing.
