{"id": "C01", "title": "Monad left identity", "statement": "Running `i.ret(a).bind(f)` is indistinguishable from running `f(i, a)`: same result, same remainder, same side effects, same panics and non-termination.", "quantifier": "every input slice, mode, value a, continuation f (including one that mutates captured state, panics or loops) and error types", "why_tests_cant": "the continuation f is an arbitrary user closure; a test fixes one closure and one input", "anchors": ["src/parse_result.rs: ParseResult::bind", "src/input.rs: Input::ret"]}
{"id": "C02", "title": "Monad right identity", "statement": "`m.bind(|i, x| i.ret(x))` returns exactly `m` (value, remainder, error, error position, requested amount) when the error type is unchanged; with a conversion only the error value is converted.", "quantifier": "every parse result m and every error conversion", "why_tests_cant": "ranges over all three states with arbitrary payloads and conversions", "anchors": ["src/parse_result.rs: ParseResult::bind", "src/input.rs: Input::ret"]}
{"id": "C03", "title": "Monad associativity", "statement": "`m.bind(f).bind(g)` and `m.bind(|i, x| f(i, x).bind(g))` agree in result and side effects, for changing error types whenever the direct error conversion equals the composition of the two steps; without that coherence they can differ.", "quantifier": "every m, f, g, captured state and every triple of error conversions", "why_tests_cant": "f and g are arbitrary closures and the law must hold for each", "anchors": ["src/parse_result.rs: ParseResult::bind"]}
{"id": "C04", "title": "Failure short-circuits", "statement": "`bind`/`then` on a failed or incomplete result never calls the continuation (captured state is untouched), keeps the error position or requested amount, and converts the error value exactly once; `map`, `map_err` and `inspect` only touch the state they are documented to touch, `map` obeys the functor laws, `inspect` calls its closure exactly once on success and never otherwise.", "quantifier": "every result, continuation, closure and captured state", "why_tests_cant": "the claim is about the absence of calls for every closure", "anchors": ["src/parse_result.rs: bind, then, map, map_err, inspect"]}
{"id": "C05", "title": "Remainder locality", "statement": "A parser assembled from the library's parsers and combinators (with arbitrary user closures in between) can only ever return a remainder that is a suffix of the slice it was given, keeps the end-of-input mode, and reports error positions that are suffixes of the slice it was given.", "quantifier": "every parser expression built from the public parsers/combinators, every input, mode and captured state", "why_tests_cant": "ranges over all parser programs, an infinite family", "anchors": ["src/parsers.rs", "src/combinators/mod.rs", "src/combinators/bounded.rs", "src/ascii.rs"]}
{"id": "C06", "title": "No reachable panic", "statement": "A parser assembled from the library's parsers and combinators never panics by itself, provided integer conversions do not overflow, `a..b` ranges have a < b, and `many_till` is not used with a `..n` range.", "quantifier": "every parser expression of that class, every input, mode and captured state", "why_tests_cant": "absence of panics over all programs and all inputs", "anchors": ["src/parsers.rs", "src/combinators/mod.rs: matched_by", "src/combinators/bounded.rs"]}
{"id": "C07", "title": "Verdicts on partial input are stable", "statement": "If a parser assembled from the library (without `peek`, `eof`, `take_remainder`, `many_till`) returns a value or an error on a slice that is not the last one, then appending any further data, in either mode, gives the same value or error, with the remainder or error position extended by exactly the appended data.", "quantifier": "every such parser expression, every slice, every continuation of the stream, both modes", "why_tests_cant": "quantifies over all parser programs and all possible future input", "anchors": ["src/parsers.rs", "src/combinators/mod.rs", "src/combinators/bounded.rs", "src/input.rs: is_last_slice"]}
{"id": "C08", "title": "Incomplete requests are positive and truthful", "statement": "If such a parser reports `Incomplete(n)` on a non-last slice then n >= 1, and supplying fewer than n further items (not marked as last) still gives `Incomplete`, with a total demand that never shrinks.", "quantifier": "every such parser expression, every slice and every continuation shorter than n", "why_tests_cant": "needs all continuations shorter than the request, for all parsers", "anchors": ["src/parsers.rs: take, string, any", "src/combinators/mod.rs", "src/combinators/bounded.rs"]}
{"id": "C09", "title": "Which parsers depend on chunk boundaries", "statement": "`peek`, `eof`, `take_remainder` and `many_till` give verdicts on a non-last slice which later data contradicts: their result depends on where the stream happened to be cut.", "quantifier": "existential: one concrete pair of chunkings per parser; the positive half (all other parsers) is C07", "why_tests_cant": "the positive counterpart is universal over parsers; here the exact boundary of that class is settled", "anchors": ["src/parsers.rs: peek, eof, take_remainder", "src/combinators/macros.rs: iter_till_end_test", "src/combinators/bounded.rs: many_till"]}
{"id": "C10", "title": "parse_only runs in end-of-input mode", "statement": "`parse_only(p, s)` calls p exactly once, on the whole slice marked as last, and maps success, error (with position) and incomplete faithfully.", "quantifier": "every parser closure, slice and captured state", "why_tests_cant": "p is an arbitrary closure", "anchors": ["src/parse.rs: parse_only"]}
{"id": "C11", "title": "Single item parsers", "statement": "`any`, `satisfy`, `satisfy_with`, `token`, `not_token`, `peek_next` look at the first item only: they accept iff it meets the predicate and consume exactly it (`peek_next` nothing), reject at the unchanged position otherwise, and are incomplete by one iff the slice is empty.", "quantifier": "every item type, predicate, slice and mode", "why_tests_cant": "all slices and predicates", "anchors": ["src/parsers.rs: any, satisfy, satisfy_with, token, not_token, peek_next, peek"]}
{"id": "C12", "title": "take splits exactly", "statement": "`take(n)` succeeds iff at least n items are available, returning the first n and leaving the rest; otherwise it asks for exactly the missing number; consecutive takes add up: `take(a)` then `take(b)` matches the same as `take(a+b)`.", "quantifier": "every slice, mode and n", "why_tests_cant": "all lengths", "anchors": ["src/parsers.rs: take"]}
{"id": "C13", "title": "take_while is maximal munch", "statement": "`take_while(f)` on success returns the longest prefix whose items all satisfy f and stops in front of the first item that does not; it never errors, and is incomplete exactly when the whole non-last slice satisfies f.", "quantifier": "every slice, predicate and mode", "why_tests_cant": "all slices", "anchors": ["src/parsers.rs: take_while"]}
{"id": "C14", "title": "take_while1 is maximal munch of at least one", "statement": "`take_while1(f)` succeeds with the longest non-empty f-prefix, errors in place iff the first item exists and fails f, and otherwise is incomplete (also for an empty last slice).", "quantifier": "every slice, predicate and mode", "why_tests_cant": "all slices", "anchors": ["src/parsers.rs: take_while1"]}
{"id": "C15", "title": "take_till stops at the first match", "statement": "`take_till(f)` returns everything in front of the first item satisfying f and leaves that item; if there is none it is incomplete even on the last slice; on slices containing a match it coincides with `take_while` of the negated predicate.", "quantifier": "every slice, predicate and mode", "why_tests_cant": "all slices", "anchors": ["src/parsers.rs: take_till"]}
{"id": "C16", "title": "scan and run_scanner fold the state over the match", "statement": "`scan(s, f)` stops in front of the first item on which the state machine returns None, `run_scanner` additionally returns the state after exactly the matched items; if the machine never stops both are incomplete even on the last slice; the internal unwrap never panics.", "quantifier": "every state type, transition function, slice and mode", "why_tests_cant": "all state machines and slices", "anchors": ["src/parsers.rs: scan, run_scanner"]}
{"id": "C17", "title": "string matches literally", "statement": "`string(s)` succeeds iff s is a prefix of the slice, consuming exactly s; is incomplete by the missing length iff the slice is shorter than s (even if it already mismatches); otherwise it errors, at the start of the slice with the expected string in verbose builds, and at the first mismatching item in terse builds.", "quantifier": "every pattern, slice and mode, both error configurations", "why_tests_cant": "all pattern/slice pairs", "anchors": ["src/parsers.rs: string, err::string"]}
{"id": "C18", "title": "eof and take_remainder", "statement": "`eof` succeeds iff the slice is empty and last, and otherwise errors in place; `p` followed by `eof` under `parse_only` succeeds iff p consumes the entire input; `take_remainder` always succeeds with the entire slice.", "quantifier": "every slice, mode and parser p", "why_tests_cant": "all p", "anchors": ["src/parsers.rs: eof, take_remainder"]}
{"id": "C19", "title": "option backtracks", "statement": "`option(p, d)` gives p's value if p succeeds, and d at the untouched position if p errors (or is incomplete on the last slice); otherwise the incomplete request is passed on; it never errors.", "quantifier": "every p, default, slice, mode and captured state", "why_tests_cant": "all p", "anchors": ["src/combinators/mod.rs: option"]}
{"id": "C20", "title": "or tries the second alternative from the original position", "statement": "`or(f, g)` equals f if f succeeds (g is not called), equals g run on the original slice if f errors or is incomplete on the last slice, and passes f's incomplete on otherwise (g not called). `or` is associative, and an always-erring first alternative is neutral.", "quantifier": "every f, g, h, slice, mode and captured state", "why_tests_cant": "all alternatives", "anchors": ["src/combinators/mod.rs: or", "src/macros.rs: __parse_internal_or"]}
{"id": "C21", "title": "look_ahead consumes nothing", "statement": "`look_ahead(p)` yields p's value at the untouched position, and p's error position or incomplete request unchanged.", "quantifier": "every p, slice, mode and captured state", "why_tests_cant": "all p", "anchors": ["src/combinators/mod.rs: look_ahead"]}
{"id": "C22", "title": "matched_by returns exactly the consumed slice", "statement": "`matched_by(p)` yields p's value together with a slice which concatenated with the remainder is the original slice; it cannot panic for any parser assembled from the library.", "quantifier": "every library-built p, slice, mode and captured state", "why_tests_cant": "all p", "anchors": ["src/combinators/mod.rs: matched_by"]}
{"id": "C23", "title": "many collects greedily", "statement": "`many(p)` returns, in order, the values of the longest run of successful applications of p, each starting where the previous one stopped, and stops in front of the application that failed; it never errors; it is incomplete iff p is incomplete there on a non-last slice.", "quantifier": "every p (with captured state), slice, mode and number of iterations", "why_tests_cant": "unbounded iteration over arbitrary closures", "anchors": ["src/combinators/mod.rs: many", "src/combinators/bounded.rs: RangeFull::parse_many", "src/combinators/macros.rs: run_iter"]}
{"id": "C24", "title": "many1 / lower-bounded many", "statement": "`many(n.., p)` (and `many1` for n=1) behaves as `many`, but if fewer than n applications succeed the failing application's error (with its position) or incomplete is propagated.", "quantifier": "every n, p, slice, mode", "why_tests_cant": "unbounded iteration", "anchors": ["src/combinators/mod.rs: many1", "src/combinators/bounded.rs: RangeFrom::parse_many"]}
{"id": "C25", "title": "count is exact", "statement": "`count(n, p)` / `many(n, p)` applies p exactly n times and stops, also when p would match again or input is exhausted; with fewer matches the error or incomplete of the failing application is propagated; n = 0 succeeds without calling p.", "quantifier": "every n, p, slice, mode and captured state", "why_tests_cant": "unbounded n", "anchors": ["src/combinators/mod.rs: count", "src/combinators/bounded.rs: usize::parse_many"]}
{"id": "C26", "title": "Half-open ranges a..b and ..b", "statement": "`many(a..b, p)` with a < b and `many(..b, p)` collect between a and b-1 values greedily; the upper limit is never exceeded and p is never called once it is reached; below a the failure is propagated.", "quantifier": "every a, b, p, slice, mode and captured state", "why_tests_cant": "unbounded bounds and inputs", "anchors": ["src/combinators/bounded.rs: Range::parse_many, RangeTo::parse_many"]}
{"id": "C27", "title": "Degenerate ranges", "statement": "`many`, `skip_many`, `many_till` with a..b panic if a > b; otherwise `many` and `skip_many` panic only if p does. For the empty range n..n with n >= 1, which no number of iterations satisfies, all three run p exactly as `many(n-1, p)` and pass on its failures; after n-1 matches `many` is Incomplete(1) (so it can never succeed), `skip_many` nevertheless succeeds, and `many_till` tries the end parser once, panics in an `unreachable!()` branch if it matches and is Incomplete(1) otherwise. An upper end of 0 is the same as one of 1: at most zero.", "quantifier": "every a, b, n, p, slice and mode", "why_tests_cant": "all bounds", "anchors": ["src/combinators/bounded.rs: Range::*, RangeTo::*"]}
{"id": "C28", "title": "skip_many agrees with many", "statement": "`skip_many(r, p)` has the same outcome as `many(r, p)` with the values dropped (same remainder, errors, incompletes, calls of p, panics, divergence), for r of the form .., n.., ..n, a..b with a<b, and for exact counts as long as p never reports Incomplete(0).", "quantifier": "every range, p, slice, mode and captured state", "why_tests_cant": "relates two unbounded loops over arbitrary closures", "anchors": ["src/combinators/bounded.rs: skip_many (all impls)", "src/combinators/mod.rs: skip_many, skip_many1"]}
{"id": "C29", "title": "skip_many exact count and Incomplete(0)", "statement": "`skip_many(n, p)` with a p reporting Incomplete(0) succeeds without having matched n times, unlike `many(n, p)`, because the request shadows the counter.", "quantifier": "existential witness, plus: for every n >= 1 and every p which is Incomplete(0) on the slice", "why_tests_cant": "the defect needs a parser outside the library's own", "anchors": ["src/combinators/bounded.rs: usize::skip_many"]}
{"id": "C30", "title": "Termination of repetition", "statement": "Every bounded or unbounded repetition terminates if each successful application of p consumes at least one item; for sep_by and sep_by1 it suffices that either each item or each separator does; an unbounded `many`/`skip_many`/`many1` over a (stateless) p that succeeds without consuming never returns.", "quantifier": "every slice, mode, consuming p; and every slice with a non-consuming success", "why_tests_cant": "termination and divergence are not observable by tests", "anchors": ["src/combinators/bounded.rs", "src/combinators/macros.rs: run_iter"]}
{"id": "C31", "title": "sep_by grammar", "statement": "`sep_by(p, sep)` recognises the greedy longest p (sep p)*: it returns the p values in order, never a separator; a separator not followed by p is not consumed; sep is never tried before the first p; it never errors.", "quantifier": "every p, sep (with captured state), slice and mode", "why_tests_cant": "unbounded iteration over two arbitrary closures", "anchors": ["src/combinators/mod.rs: sep_by"]}
{"id": "C32", "title": "sep_by1 grammar", "statement": "`sep_by1` is as `sep_by` but propagates the first p's failure if no item was read.", "quantifier": "every p, sep, slice and mode", "why_tests_cant": "unbounded iteration", "anchors": ["src/combinators/mod.rs: sep_by1"]}
{"id": "C33", "title": "many_till stops at the first end match", "statement": "`many_till(p, end)` returns the values of p applied until end succeeds for the first time, consumes end's match, and fails with p's error or incomplete if p fails first; end is tried before each application of p.", "quantifier": "every p, end (with captured state), slice, mode", "why_tests_cant": "unbounded iteration", "anchors": ["src/combinators/mod.rs: many_till", "src/combinators/bounded.rs: RangeFull::many_till", "src/combinators/macros.rs: run_iter_till"]}
{"id": "C34", "title": "Bounded many_till", "statement": "`many_till(n, ..)` and `many_till(n.., ..)` and `many_till(a..b, ..)` (a<b) return a value only if the number of items is within the range and end matched right after them, never panic, and never call end before the minimum is reached; when the maximum is reached without end matching they report Incomplete(1), even on the last slice.", "quantifier": "every bound, p, end, slice, mode, captured state", "why_tests_cant": "unbounded bounds and closures", "anchors": ["src/combinators/bounded.rs: many_till for usize, RangeFrom, Range"]}
{"id": "C35", "title": "many_till with ..n panics on an early end", "statement": "`many_till(..n, p, end)` panics whenever end matches before n-1 items were collected (in particular on every input where end matches at once and n >= 2); it succeeds only if end matches after exactly n-1 items.", "quantifier": "every n, p, end and slice", "why_tests_cant": "the documented behaviour fails for all such inputs; the exact panic condition is universal", "anchors": ["src/combinators/bounded.rs: RangeTo::many_till"]}
{"id": "C36", "title": "size_hint of the repetition iterators", "statement": "The upper size bound reported to `FromIterator` is never exceeded by the items yielded afterwards; the lower bound is respected whenever the repetition succeeds, but is not a valid lower bound in general (a failing p yields fewer).", "quantifier": "every range, p, slice, mode and point during the iteration", "why_tests_cant": "must hold at each step of every run", "anchors": ["src/combinators/bounded.rs: size_hint blocks"]}
{"id": "C37", "title": "Early-stopping collections", "statement": "If the target collection stops pulling early (as Option/Result collections do), a repetition (many, many1, count, any range, sep_by, sep_by1) succeeds if enough items have been parsed and either no more are allowed or the slice is the last one; otherwise it reports Incomplete(1), although p never was incomplete: an unbounded `many` does on every slice but the last, an exact count does on the last slice too. many_till always reports Incomplete(1), since the end parser is not tried any more.", "quantifier": "every early-stopping collection, p and slice on which it stops before p fails", "why_tests_cant": "ranges over FromIterator implementations", "anchors": ["src/combinators/macros.rs: run_iter, run_from_iter"]}
{"id": "C38", "title": "ASCII predicates", "statement": "`is_digit`, `is_alpha`, `is_alphanumeric`, `is_lowercase`, `is_uppercase`, `is_whitespace`, `is_horizontal_space`, `is_end_of_line` classify each byte exactly as their documentation lists, with the inclusions and disjointness a user expects; `skip_whitespace`/`digit` consume accordingly.", "quantifier": "every byte and every slice", "why_tests_cant": "all bytes in all positions", "anchors": ["src/ascii.rs"]}
{"id": "C39", "title": "decimal computes the value", "statement": "`decimal::<T>` consumes the longest digit run and yields its base-10 value when it fits T; when it does not, a checked build panics and a wrapping build yields the value reduced into T; it errors in place on a leading non-digit.", "quantifier": "every digit string (any length, leading zeros), every following input, every integer width, signed or not", "why_tests_cant": "unbounded digit strings, all widths", "anchors": ["src/ascii.rs: decimal, to_decimal"]}
{"id": "C40", "title": "decimal/signed round-trip", "statement": "Printing any integer representable in T in base 10 and parsing it back with `decimal` (n >= 0) or `signed(decimal)` (any sign, also with explicit '+') gives the same integer and leaves whatever follows, except for the most negative value of a signed T.", "quantifier": "every integer in range, every width, every following non-digit input", "why_tests_cant": "all integers", "anchors": ["src/ascii.rs: decimal, signed"]}
{"id": "C41", "title": "signed cannot parse the minimum value in checked builds", "statement": "`signed(decimal::<iN>)` panics on the decimal representation of iN::MIN in a build with overflow checks, although the value is representable; in a wrapping build it gives the right value.", "quantifier": "every signed width", "why_tests_cant": "all widths", "anchors": ["src/ascii.rs: signed, decimal"]}
{"id": "C42", "title": "SliceStream advances exactly by consumption", "statement": "Over any history of `parse` calls on a SliceStream: the unread part is always a suffix of the original slice; success and error advance it to exactly the parser's remainder, incomplete does not move it and reports total demand counted from the current position; EndOfInput is returned iff nothing is left and then the parser is not run.", "quantifier": "every slice, every sequence of library-built parsers, captured state", "why_tests_cant": "all histories", "anchors": ["src/buffer/slice.rs"]}
{"id": "C43", "title": "SliceStream equals parse_only", "statement": "A `parse` on a SliceStream with unread part s <> [] returns what `parse_only` returns on s; a sequence of successful parses returns what parsing the same sequence with bind on the whole slice returns.", "quantifier": "every slice and every finite sequence of parsers", "why_tests_cant": "all sequences", "anchors": ["src/buffer/slice.rs", "src/parse.rs: parse_only"]}
{"id": "C44", "title": "FixedSizeBuffer is a bounded FIFO", "statement": "Under any sequence of fill / request_space / consume (within len) with any source, the visible contents behave as a queue: fill appends exactly the items read, consume drops from the front, request_space never changes the contents; capacity never changes; never more than capacity items are held.", "quantifier": "every operation sequence, source behaviour, size", "why_tests_cant": "all histories and all source schedules", "anchors": ["src/buffer/buffer.rs: FixedSizeBuffer"]}
{"id": "C45", "title": "GrowingBuffer is a FIFO", "statement": "The same queue behaviour for GrowingBuffer, for every allocator growth policy and limit; the capacity never shrinks; a limited buffer does not grow once its capacity exceeds the limit.", "quantifier": "every operation sequence, source behaviour, growth policy, limit", "why_tests_cant": "all histories", "anchors": ["src/buffer/buffer.rs: GrowingBuffer"]}
{"id": "C46", "title": "Uninitialised memory is never exposed", "statement": "No sequence of buffer or Source operations with a source honouring the DataSource contract exposes an uninitialised element, reads or writes out of bounds, or sets a length beyond the allocation. In a release build this holds for a GrowingBuffer used on its own as long as consume stays within its length (C65 shows that it fails otherwise); a Source never consumes more than that.", "quantifier": "every operation sequence, source schedule (short reads, errors, scribbling beyond the returned count), size, growth policy", "why_tests_cant": "memory safety of `unsafe` code over all histories", "anchors": ["src/buffer/buffer.rs: with_size, fill, request_space, deref"]}
{"id": "C47", "title": "request_space makes room", "statement": "After `request_space(n)`, an unlimited GrowingBuffer has room for n more items, and a FixedSizeBuffer has as soon as len + n <= capacity; a limited GrowingBuffer over its limit does not even reclaim consumed space.", "quantifier": "every reachable buffer state and n", "why_tests_cant": "all states", "anchors": ["src/buffer/buffer.rs: request_space"]}
{"id": "C48", "title": "Stream data is neither lost nor duplicated", "statement": "For any history of Source operations (parse with any library-built parser, fill, read, fill_buf, consume, reset, set_autofill) and any source schedule including short reads and I/O errors at any point: items handed out or skipped so far ++ buffered items ++ items still in the source = the original stream. A call of parse touches the data source by filling only, and leaves the flags and the request of the source as they are after filling, except that missing data is noted as the request and, if more may come, as a flag.", "quantifier": "every history, parser, source schedule, buffer kind and error point", "why_tests_cant": "all interleavings of operations and failures", "anchors": ["src/buffer/stateful.rs: Source::*", "src/buffer/buffer.rs"]}
{"id": "C49", "title": "fill either satisfies the request or signals the end", "statement": "After a successful `fill`, either at least max(1, request) items are buffered and the end flag is clear, or the end flag is set; an I/O error leaves flags and previously buffered data intact, so the call can be repeated; fill terminates for every source honouring the contract.", "quantifier": "every state, source schedule", "why_tests_cant": "all schedules", "anchors": ["src/buffer/stateful.rs: fill, fill_requested"]}
{"id": "C50", "title": "End of input is only signalled at the real end when the request fits", "statement": "With an unlimited GrowingBuffer, or a FixedSizeBuffer large enough for the request, the stream is marked as ended only if the source has nothing left; with a smaller buffer the end is signalled although the source has more, so that e.g. `take_while` returns a truncated match.", "quantifier": "every state and source; plus concrete witness for the failure", "why_tests_cant": "all reachable states; the failure only shows for inputs larger than the buffer", "anchors": ["src/buffer/stateful.rs: fill, parse", "src/buffer/buffer.rs: FixedSizeBuffer"]}
{"id": "C51", "title": "Chunking does not matter", "statement": "Parsing through a Source with automatic fill, retrying on Retry, gives for every chunking of the stream the same outcome as parsing the whole remaining stream at once (same value, error, incomplete demand), and leaves the stream at the same position.", "quantifier": "every parser of the C07 class that terminates, every stream, every schedule of non-empty reads, every buffer in which the requests fit", "why_tests_cant": "all chunkings of all streams", "anchors": ["src/buffer/stateful.rs: parse", "src/buffer/buffer.rs", "src/parsers.rs", "src/combinators"]}
{"id": "C52", "title": "Source refines SliceStream", "statement": "A sequence of such retried parses over a Source yields, call by call, what a SliceStream over the complete data yields, as long as data remains.", "quantifier": "every finite sequence of parsers, stream and chunking", "why_tests_cant": "all histories", "anchors": ["src/buffer/stateful.rs", "src/buffer/slice.rs"]}
{"id": "C53", "title": "Retry makes progress", "statement": "With autofill on, each Retry is followed by reading at least one new item or by reaching the end of input, so a retry loop over a finite stream terminates; a parser reporting Incomplete(0) makes the loop spin forever.", "quantifier": "every parser reporting positive requests, every finite stream", "why_tests_cant": "liveness over all schedules", "anchors": ["src/buffer/stateful.rs: parse, fill"]}
{"id": "C54", "title": "reset disables automatic filling", "statement": "After `reset()`, no number of `parse` calls reads from the data source until `set_autofill(true)` is called again or `fill` is called, so the retry loop documented for streaming never progresses; buffered contents and position are kept.", "quantifier": "every state, parser sequence and source", "why_tests_cant": "claims absence of reads over all later histories", "anchors": ["src/buffer/stateful.rs: reset, set_autofill, parse"]}
{"id": "C55", "title": "A limited GrowingBuffer loses the stream tail", "statement": "Once a limited GrowingBuffer's capacity exceeds its limit and its populated end has reached the capacity, consuming everything does not help: every further fill asks the source for nothing, and every parse with automatic fill returns EndOfInput without calling the parser, although the source still has data (or the source's error, if it fails on being asked for nothing).", "quantifier": "every such state, every later history of parses; plus a reachable witness", "why_tests_cant": "needs the whole future of the stream", "anchors": ["src/buffer/buffer.rs: GrowingBuffer::request_space", "src/buffer/stateful.rs"]}
{"id": "C56", "title": "Read for Source", "statement": "`read(buf)` delivers the next min(buf.len, available) items in order and removes exactly those; it returns 0 for a non-empty buf only if nothing is buffered and the source returned nothing (or there was no room); on an I/O error nothing is lost.", "quantifier": "every state, buffer length and source schedule", "why_tests_cant": "all schedules", "anchors": ["src/buffer/stateful.rs: io::Read::read"]}
{"id": "C57", "title": "BufRead for Source", "statement": "`fill_buf` exposes the buffered data without consuming; over a FixedSizeBuffer it returns an empty slice only if the source returned nothing; over a fresh GrowingBuffer it returns an empty slice without reading, signalling EOF on any source; consume removes from the front and changes nothing else, and panics in a debug build if there is not enough.", "quantifier": "every state and source", "why_tests_cant": "all states", "anchors": ["src/buffer/stateful.rs: io::BufRead::fill_buf, consume"]}
{"id": "C58", "title": "IteratorDataSource delivers the iterator in order", "statement": "`read` takes items from the iterator in order, as many as fit, stops early only when the iterator yields None, and never takes an item it does not deliver.", "quantifier": "every iterator (also non-fused) and buffer length", "why_tests_cant": "all iterators", "anchors": ["src/buffer/data_source.rs: IteratorDataSource::read"]}
{"id": "C59", "title": "StreamError equality and conversion", "statement": "Equality of StreamError is symmetric and transitive, and reflexive except on IoError which equals nothing; conversion from ParseError keeps all information and never produces IoError, EndOfInput or Retry.", "quantifier": "every pair and triple of errors", "why_tests_cant": "all payloads", "anchors": ["src/buffer/mod.rs: StreamError"]}
{"id": "C60", "title": "Request arithmetic overflow", "statement": "When a parser's incomplete request plus the buffered length exceeds usize::MAX, `parse` on both stream types panics in checked builds; otherwise the request is exact. `take(1)` followed by `take(usize::MAX)` reaches this on a one-item slice.", "quantifier": "every stream state and request", "why_tests_cant": "boundary at 2^64 is out of reach of tests", "anchors": ["src/buffer/stateful.rs: parse", "src/buffer/slice.rs: parse", "src/parsers.rs: take"]}
{"id": "C61", "title": "parse! splits at the documented operators", "statement": "The unrolled rules of `parse!` expand exactly like the simple one-token-at-a-time rules: statements split at the first `;`, expressions at the first `>>`, then `<|>`, then `<*`, for token sequences of any length; the result follows the documented grammar with precedence `<*` > `<|>` > `>>`, all right associative.", "quantifier": "every token-tree sequence", "why_tests_cant": "all token sequences of all lengths; unrolling windows of 5, 8 and 11 tokens have boundary cases", "anchors": ["src/macros.rs: __parse_internal"]}
{"id": "C62", "title": "parse! means bind, or and skip", "statement": "The parser denoted by an expanded `parse!` block is the documented one: `a >> b` runs b after a and keeps b's value, `a <* b` keeps a's value, `a <|> b` is `or`, `let x = a; rest` is bind; `>>` and `<*` are associative as parsers and a block may be re-bracketed.", "quantifier": "every block, parser environment, slice, mode", "why_tests_cant": "all expressions", "anchors": ["src/macros.rs", "src/combinators/mod.rs: or", "src/parse_result.rs: bind"]}
{"id": "C63", "title": "The HTTP example parser is chunk independent", "statement": "The request parser of the example gives the same requests for every way the network cuts the stream, terminates on every input and never panics; printing a well-formed request and parsing it gives the request back.", "quantifier": "every byte stream and chunking", "why_tests_cant": "all chunkings of all byte streams", "anchors": ["examples/http_parser.rs"]}
{"id": "C64", "title": "A source breaking its contract corrupts safe code", "statement": "A DataSource is a safe trait, but one which claims items it has not written makes both buffers expose uninitialised memory, in debug and release builds. One which claims more items than fit makes a FixedSizeBuffer panic in a debug build, while in a release build a following request_space copies from outside of the buffer's memory.", "quantifier": "every buffer state and source for the panic; reachable witnesses for the undefined behaviour", "why_tests_cant": "undefined behaviour is not observable by a passing test; the claim is about what the compiler may assume", "anchors": ["src/buffer/buffer.rs: fill, deref, request_space", "src/buffer/data_source.rs: DataSource"]}
{"id": "C65", "title": "consume beyond len in release builds", "statement": "In a release build `consume(n)` with n > len is not detected: a following request_space on a GrowingBuffer copies from outside of its memory, while a FixedSizeBuffer panics as soon as it is borrowed or asked for space.", "quantifier": "every FixedSizeBuffer state and n up to isize::MAX; a reachable witness for GrowingBuffer", "why_tests_cant": "tests run with debug assertions; the release behaviour is undefined behaviour", "anchors": ["src/buffer/buffer.rs: consume, request_space"]}
{"id": "C66", "title": "Requests are bounded by what was asked for", "statement": "The number of items a library-built parser reports in Incomplete(n) is at most the largest count given to any take or incomplete, or length given to any string, inside of it (and at least room for one), whatever the input; so a buffer that holds the stream plus that many items is always large enough.", "quantifier": "every library-built parser, input and user state", "why_tests_cant": "all parsers of unbounded nesting and all inputs", "anchors": ["src/parsers.rs", "src/combinators", "src/input.rs: incomplete"]}
{"id": "C67", "title": "An exhausted source may run the parser once more", "statement": "Once all items are consumed, a retried parse over a Source gives EndOfInput as a SliceStream does, except when the source has not noticed the end yet: then the parser is run on an empty slice as if more could follow, and if it succeeds or fails there that is the answer.", "quantifier": "every parser of the C07 class, every exhausted stream", "why_tests_cant": "depends on which read was last, for all schedules", "anchors": ["src/buffer/stateful.rs: parse"]}
{"id": "C68", "title": "The record loop reads the records of the stream", "statement": "The loop shown in the documentation (parse one record after the other from a Source, continue on Retry, stop at EndOfInput) handles exactly the records of the stream, in order, however the source splits it; it reports an error exactly if the stream is not a sequence of records fitting the buffer, and it terminates. Records which can be recognised without lookahead fit exactly if they are not longer than the buffer.", "quantifier": "every library-built record parser (non-empty, self-delimited records), every stream, chunking, buffer size and handler", "why_tests_cant": "all parsers, chunkings and buffer sizes; needs an invariant over an unbounded number of calls", "anchors": ["src/buffer/stateful.rs: parse, fill", "examples/http_parser.rs: main", "README.md"]}
{"id": "C69", "title": "A syntactic check for termination", "statement": "A parser in which every parser repeated without a limit contains, on every path, a part that consumes an item terminates on every input, causes no undefined behaviour, and never asks for zero items; if it is itself of that kind every success consumes.", "quantifier": "every parser assembled from the library passing the check, every slice, mode and user state", "why_tests_cant": "termination on all inputs of all parsers of unbounded nesting", "anchors": ["src/parsers.rs", "src/combinators/mod.rs", "src/combinators/bounded.rs", "src/ascii.rs"]}
{"id": "C70", "title": "The HTTP example counts requests", "statement": "The program of the HTTP example prints n if the file is a sequence of n < 2^31 requests of at most 6 KiB each, however reads split it, and panics if it is not such a sequence; with 2^31 or more requests the counter overflows (panic in debug builds, wrap-around in release builds). It always terminates.", "quantifier": "every file without read errors and every splitting of it", "why_tests_cant": "all files and all splittings", "anchors": ["examples/http_parser.rs: main", "src/buffer/stateful.rs: new, parse"]}
{"id": "C71", "title": "Repetition unrolls", "statement": "many(p) behaves as `p then many(p), else nothing`, many1, count, the bounded ranges, skip_many, skip_many1, sep_by1 and sep_by satisfy the corresponding equations, and many_till(p, end) is `end, else p then many_till(p, end)` provided end never asks for more on partial input (without that they differ). many_till with a range requires one item less after each item, takes the end only after the required items, and with no room for further items tries the end and is incomplete without it.", "quantifier": "every parser (user closures with effects, panics and divergence included), every slice, mode and user state", "why_tests_cant": "equations between parsers over all parsers, inputs and numbers of items", "anchors": ["src/combinators/mod.rs: many, many1, count, sep_by, sep_by1, many_till, skip_many, skip_many1, or", "src/combinators/bounded.rs"]}
{"id": "C72", "title": "How closures and comparisons are called", "statement": "satisfy, satisfy_with, token, not_token and string call the given closure or comparison in the order of the input, once per item, and not at all without enough items; take_while, take_while1, take_till, scan and run_scanner call it for the items taken and for the one which ends the match, and for no other. If a call panics or does not return, so does the parser, and only then. Nothing is assumed about PartialEq: token and string return the items of the input.", "quantifier": "every closure and every PartialEq (effects, panics and divergence included), every slice, mode and state", "why_tests_cant": "all closures with all effects, all slices", "anchors": ["src/parsers.rs: satisfy, satisfy_with, token, not_token, take_while, take_while1, take_till, scan, run_scanner, string"]}
{"id": "C73", "title": "Memory used by repetitions and arbitrary collections", "statement": "Collecting many, many1, count or many_till into a Vec needs no more memory than the lower limit of the range, or twice the number of items parsed, whichever is larger; with that much memory the result is the same as with unlimited memory. After the first item memory for the lower limit is requested, whatever the length of the input, so count(n, p) panics if n items do not fit; it also panics if more items are parsed than fit. Whatever methods of the iterator a collection calls, in whatever order: if the repetition succeeds, the number of successes of the parser lies in the range and the remainder begins after the last success (of the item parser, or for many_till of either parser; then the end was found, and the item parser has not failed since).", "quantifier": "every range, parser, input, state, memory size; every collection without side effects", "why_tests_cant": "all FromIterator implementations, all memory sizes and all parsers", "anchors": ["src/combinators/bounded.rs: many, many_till (size_hint)", "src/combinators/macros.rs: run_iter!, run_iter_till!", "src/combinators/mod.rs: count"]}
{"id": "C74", "title": "Comparing, printing and editing buffers", "statement": "is_empty of a buffer tells whether it holds nothing; writing through deref_mut changes the contents and neither length, room nor capacity. Two FixedSizeBuffers which compare equal are indistinguishable, but equal contents may compare unequal, as consumed items take part. Comparing or printing a FixedSizeBuffer reads its whole memory: this is undefined behaviour for new buffers, and exactly until the memory has been filled up to its end once; likewise a GrowingBuffer cannot be printed after its first request_space.", "quantifier": "every buffer state, history of operations, data source, item type and item equality", "why_tests_cant": "all histories; undefined behaviour is not observable by a test", "anchors": ["src/buffer/buffer.rs: derive(Debug, Eq, PartialEq) for FixedSizeBuffer, derive(Debug) for GrowingBuffer, DerefMut, Buffer::is_empty"]}
{"id": "C75", "title": "What errors say has no influence on parsing", "statement": "Two parsers which are written alike but for their errors (error values and types, map_err, conversions of errors, the feature verbose_error) consume and yield the same, have the same effects, ask for the same amounts of input, and fail, panic and hang on the same inputs, for every item type, collection and closure. parse_only therefore answers the same but for the content of the error. If string is compiled alike in both, errors have the same positions too, and Sources and SliceStreams are left in the same state. Otherwise they are not: with verbose_error a failed string reports its beginning instead of the difference, and a stream goes on from the reported position.", "quantifier": "every pair of parsers built from the public interface differing in errors only, every input, state, source and buffer", "why_tests_cant": "relates two builds of the library for all parsers and inputs", "anchors": ["src/parsers.rs: mod err", "src/parse_result.rs: map_err, bind", "src/combinators/mod.rs", "src/combinators/bounded.rs", "src/buffer/stateful.rs: parse", "src/buffer/slice.rs: parse"]}
{"id": "C76", "title": "Laws for rewriting parsers", "statement": "token(t), not_token(t) and any are satisfy of `== t`, `!= t` and `true`; satisfy_with(f, p) is satisfy(p after f) mapped by f; peek_next is look_ahead(any). take_till(f) is take_while(!f) followed by a look at the next item; scan with a predicate and no state is take_till; take_while(f) and take_while1(f) are what skip_many(satisfy(f)) and skip_many1(satisfy(f)) matched. matched_by(p) without the slice is p; many(p) and sep_by(p, s) are option(many1(p), []) and option(sep_by1(p, s), []); skip_many(p) is many(p) without its items; count(a + b, p) is count(a, p) and then count(b, p). For parsers whose closures have no effects also: or(p, p) is p, a common start of two alternatives can be parsed once, and look_ahead(p) before p changes nothing; with effects or(p, p) may differ from p.", "quantifier": "all items, predicates, parsers, inputs, modes and captured states; the equalities hold inside any other parser (C75)", "why_tests_cant": "Equality of two parsers is a statement about every input, both modes, incomplete results and every state of the closures.", "anchors": ["src/parsers.rs", "src/combinators/mod.rs", "src/combinators/bounded.rs"]}
{"id": "C77", "title": "How often and on what a retried parse runs the parser and reads the source", "statement": "In a loop which calls Source::parse again on Retry and on I/O errors, every run of the parser is on a beginning of the remaining stream. Every run but the last was incomplete and not at the end of the input, and the next run gets at least as many items, and at least all the items asked for unless it is at the end of the input. If the parser always asks for something there are at most two more runs than items, however the data is cut. The data source is read at most once for each item it delivers, once for each I/O error, and once more. Any parser is meant, also one with effects which is not made of the combinators.", "quantifier": "every parser, data source, way of cutting the data, buffer, state and build mode", "why_tests_cant": "A bound on the cost for every parser, every schedule of reads and errors.", "anchors": ["src/buffer/stateful.rs: parse, fill, fill_requested", "src/buffer/data_source.rs: DataSource"]}
{"id": "C78", "title": "Filling a Source by hand", "statement": "A loop which calls fill before each parse, and again on Retry and on I/O errors, does exactly what the loop with automatic filling does, whether automatic filling is on or off. With automatic filling off, calling parse first and going on with that loop on Retry has the outcome of automatic filling too, also on a new Source, where the first run gets nothing. Both therefore give the answers of the parser on all of the data at once, and a sequence of such calls gives the answers of a SliceStream, however the data is cut. Automatic filling stays as it was set.", "quantifier": "every parser, source, buffer, state and build mode for the equalities; every streaming parser and finite stream for the answers", "why_tests_cant": "Equality of two loops for all parsers and all schedules of reads and errors.", "anchors": ["src/buffer/stateful.rs: fill, parse, set_autofill"]}
{"id": "C79", "title": "Parsers which leave a foreign slice", "statement": "Input::replace is safe, so a parser can leave a slice which is not an end of its input. Streams look at its length only. If it is longer than what the parser was given, a debug build panics; in a release build a SliceStream, or a Source with a FixedSizeBuffer or a GrowingBuffer, reports success and goes back to items consumed before, as far as its memory reaches, and if the slice is even longer every later call of parse panics.", "quantifier": "every parser, stream state, slice left (up to isize::MAX items) and build mode", "why_tests_cant": "Wrapping arithmetic on all positions and lengths; unit tests run in debug builds.", "anchors": ["src/buffer/slice.rs: parse", "src/buffer/stateful.rs: parse", "src/buffer/buffer.rs: consume", "src/input.rs: replace"]}
{"id": "C80", "title": "A Source is memory safe whatever is done with it", "statement": "No sequence of calls of parse, fill, len, is_empty, buffer, reset, set_autofill, read, fill_buf and consume on a Source with a FixedSizeBuffer or a GrowingBuffer, with a source honouring its contract, is undefined behaviour, in debug and release builds, although parsers may leave foreign slices and consume may be called with any number, and although a GrowingBuffer alone is not safe then. Every call returns or panics, unless a parser does not return.", "quantifier": "every sequence of calls, parser (not itself undefined behaviour), number, buffer size, growth policy, limit and source", "why_tests_cant": "Memory safety of unsafe code over all histories of misuse.", "anchors": ["src/buffer/stateful.rs", "src/buffer/buffer.rs"]}
{"id": "C81", "title": "Release builds of parsers", "statement": "A release build, where subtraction of usize wraps around instead of panicking, does not change what any parser or combinator does: take, string, many, many1, count, skip_many, many_till, sep_by and the ranges (also empty and reversed ones) behave exactly as in a debug build, whatever the parsers, separators and collections given to them do. So does matched_by, also around a parser which leaves a longer slice than it was given: it panics in both builds. The parsers which can be assembled are the same in both builds, so all that is proved about assembled parsers holds in both. Underneath, addition and subtraction of usize are exact where the result is a usize; where it is not they panic in a debug build, and give the result modulo 2^64 in a release build.", "quantifier": "every parser, range, collection, state and input", "why_tests_cant": "Unit tests run in debug builds; needs an invariant on every counter.", "anchors": ["src/parsers.rs: take, string", "src/combinators/bounded.rs", "src/combinators/mod.rs: matched_by"]}
{"id": "C82", "title": "The parsers in the documentation", "statement": "The example of the front page accepts exactly a nonempty first name without spaces, a space, and a nonempty last name up to a line feed or the end of the input. The digits-and-missiles example never overflows and yields the two digits and their sum. parse_ip accepts exactly ip: and four decimal numbers separated by dots, followed by a semicolon; in a debug build it panics exactly if a number after well-formed ones exceeds 255, while a release build keeps the remainder modulo 256. log_severity yields the level whose text is at the beginning of the input, but before the end of the input it waits for five bytes even where a shorter text is complete. All of them are independent of how the input is cut.", "quantifier": "every input, both modes, both builds, with and without verbose errors", "why_tests_cant": "The documentation tests one input each; the claims are equivalences over all byte strings.", "anchors": ["src/lib.rs:27-38, 147-158", "src/macros.rs:59-69, 91-96"]}
{"id": "C83", "title": "Ready-made sources, and sources on top of sources", "statement": "Source::new has a buffer of 6 KiB and gives the same results as parsing all of the data, whatever the reader does, as long as no request exceeds that. Sources whose data sources cannot be told apart by reading (a reader and its ReadDataSource, two iterators yielding the same) cannot be told apart by any method. A Source over a FixedSizeBuffer can itself be read from as io::Read: it delivers what it holds and what its source delivers, without loss or duplication, also across I/O errors, and reports the end only at the end; so sources can be stacked, with buffers of any sizes below.", "quantifier": "every reader, iterator, stream, chunking, error point, parser and buffer size", "why_tests_cant": "relates all executions of two programs; all chunkings of both layers", "anchors": ["src/buffer/stateful.rs: new, from_read, from_iter, io::Read", "src/buffer/data_source.rs", "src/buffer/buffer.rs: DEFAULT_BUFFER_SIZE"]}
{"id": "C84", "title": "Panics leave streams intact", "statement": "If a parser, a data source or a buffer panics in a method of Source and the panic is caught, the Source is intact: no item it held is lost, consumed or repeated, everything handed over before is held, request and automatic filling are unchanged. After a panic of the parser, calling parse again with any parser gives what it would have given without the first call. Over any history of calls with caught panics, what was handed out followed by what is held is what was held at the start followed by what the data source handed over; no such history of safe calls is undefined behaviour, even with invalid positions and foreign remainders. A SliceStream is unchanged by a panic. Items which an iterator yielded in the same read before it panicked are lost.", "quantifier": "every data source and iterator panicking at any point, every parser panicking at any point, every buffer state, history, debug and release builds", "why_tests_cant": "all panic points in all histories; absence of undefined behaviour after unwinding", "anchors": ["src/buffer/stateful.rs: parse, fill, fill_requested, io::Read, io::BufRead", "src/buffer/buffer.rs: fill, request_space, consume", "src/buffer/data_source.rs", "src/buffer/slice.rs: parse"]}
{"id": "C85", "title": "The programs written with parse! are the parsers they look like", "statement": "Each block which the example program, the benchmark, the README and the documentation write with parse! or parser! expands within Rust's default limit on nested macro invocations, and what it expands to is, as a function of the input, the parser one reads from it: parsers in the order written, values bound to the names after let, `<*` and `<|>` as documented, and ret of the struct or tuple given. So what is proved about those parsers (C63, C70, C82, C86) is about the programs as written.", "quantifier": "every input, state, build and value of verbose_error", "why_tests_cant": "equality of functions on all inputs; tests of the macros use a simplified Input and literals only", "anchors": ["examples/http_parser.rs", "benches/http_bench.rs", "README.md", "src/lib.rs: documentation", "src/macros.rs: parse!, parser!, documentation", "src/parse.rs: documentation"]}
{"id": "C86", "title": "Many requests in a slice", "statement": "Parsing many(request) from the stream of a non-empty slice always succeeds. It returns exactly the requests at the beginning of the slice, as long as there are any, and the stream continues where no further request begins. Requests written one after the other are all returned and nothing is left. parse(request) returns the first request and leaves the stream behind it.", "quantifier": "every slice, every list of well-formed requests, debug and release builds, with and without verbose_error", "why_tests_cant": "ranges over all byte strings; says where parsing stops for all of them", "anchors": ["benches/http_bench.rs", "src/buffer/slice.rs: parse, into_stream", "src/combinators/mod.rs: many"]}
{"id": "C87", "title": "The end of the input is remembered", "statement": "Once parse has returned EndOfInput or Incomplete, or fill has not got what was asked for, no call of parse reads from the data source again, whatever parsers are used, even if more data is available; after EndOfInput every parser gets EndOfInput, without being run. read, fill_buf, consume and set_autofill do not change this: what read and fill_buf fetch is parsed as the last of the input. fill undoes it if it gets what was asked for. reset followed by set_autofill(true) undoes it: the retry loop then gives what the parser gives on what was held followed by the new data. An end which was none, because the buffer was too small for a request, is remembered in the same way, and the rest of the stream is never parsed.", "quantifier": "every source reached by any history of calls, buffer, parser, data source, amount of new data, debug and release builds", "why_tests_cant": "for ever: all continuations with all parsers, and all data made available later", "anchors": ["src/buffer/stateful.rs: parse, fill, reset, set_autofill, io::Read, io::BufRead"]}
{"id": "C88", "title": "Reading to the end, with I/O errors on the way", "statement": "A loop which calls parse with the same parser until EndOfInput, and goes on after Retry and after I/O errors, hands over exactly the values which the parser finds one after the other in the whole data, in order and once each, whatever pieces the data comes in and wherever I/O errors occur, if the buffer can hold the data. It ends with success if nothing is left, with Incomplete or with the error of the parser if there is something left which it cannot parse. The same loop on a SliceStream of the same data gives the same. Unlike for C68, the last value may end with the input.", "quantifier": "every data, division into pieces, position and number of I/O errors, lawful buffer (in particular GrowingBuffer without limit), parser built from chunk-independent parts which takes something whenever it succeeds, function called with the values, debug and release builds", "why_tests_cant": "all divisions into pieces and all placements of errors; termination of the loop", "anchors": ["src/buffer/stateful.rs: parse, fill", "src/buffer/slice.rs: parse", "src/buffer/buffer.rs: GrowingBuffer", "examples/http_parser.rs: request"]}
{"id": "C89", "title": "A GrowingBuffer stays proportional to the largest value, however long the stream is", "statement": "The capacity of a Source over a GrowingBuffer is bounded by what is asked for at one time, not by how much has been read. If every call asks for at most R items in total (a parser that returns Incomplete(n) on k items has k + n at most R; read is given a slice of at most R), then a buffer with space for R never grows again, whatever calls are made; the capacity is never over the larger of the initial one and 2R plus what the allocator adds to one allocation; and with a limit it exceeds the limit by at most R plus what the allocator adds. The memory is reallocated at most R times in total. In particular, reading value after value from a stream of any length, through Retry and I/O errors, with a parser which wherever it begins asks for at most R items, keeps the capacity of a new buffer at 2R plus what the allocator adds. The condition on the parser is the one under which a FixedSizeBuffer of size R suffices for records; for HTTP requests of at most L bytes each the buffer has at most 2L bytes plus what the allocator adds.", "quantifier": "for all sequences of calls of the API of Source, all parsers, sources, positions of I/O errors, allocator behaviours, in debug and release builds", "why_tests_cant": "A leak of capacity shows up only in long runs and depends on the order of requests, the split of the stream into pieces and the allocator; a test observes one such run.", "anchors": ["src/buffer/buffer.rs: GrowingBuffer::request_space, fill, consume", "src/buffer/stateful.rs: fill_requested, fill, parse, read, fill_buf, consume"]}
{"id": "C90", "title": "Functions which call themselves or each other are parsers like any other", "statement": "For functions whose bodies are put together from the parsers and combinators of the library and from calls of these functions, there is exactly one behaviour: a call has an outcome if and only if some depth of nesting suffices for it. A call then does what the body does; and whatever else satisfies the equations agrees with it wherever it returns. All that is said about parsers put together from the library without recursion holds for these functions too, in particular: what is left is an end of the input and the mode is kept, there is no panic if no part can panic, and results do not depend on where the input is cut if no part looks at the end.", "quantifier": "for all families of mutually recursive functions, finitely or infinitely many, of all types, with closures which have effects, on all inputs", "why_tests_cant": "A test runs one grammar on one input. The claim is about all grammars; it says that proofs by induction over the structure of a parser carry over to recursive ones, where such an induction has no base.", "anchors": ["src/parse_result.rs: bind, then, map, map_err, inspect", "src/combinators/mod.rs: count, option, or, many, many1, sep_by, sep_by1, many_till, skip_many, skip_many1, matched_by, look_ahead", "src/combinators/bounded.rs: many, skip_many, many_till"]}
{"id": "C91", "title": "Recursion ends if items are consumed first, and left recursion never does", "statement": "If the functions can be ranked such that every body consumes an item before it calls a function of the same or a higher rank, and repeats only what consumes, then every call returns on every input, the equations have no other solution, and with R ranks the calls are nested at most R times (number of items + 1) deep. This depth is reached: it is the input which decides how much stack is used. If on the other hand each of some functions begins with a call of one of them, then a call of any of them does not return, on no input, not even with or or option around the call.", "quantifier": "for all families of functions, all inputs, modes and states of the closures", "why_tests_cant": "Termination on all inputs, and non-termination, cannot be observed by a test.", "anchors": ["src/parse_result.rs: bind, then", "src/combinators/mod.rs: or, option, many, sep_by, look_ahead", "src/combinators/bounded.rs: many, skip_many, many_till"]}
{"id": "C92", "title": "Parsers mean what parsing expression grammars mean", "statement": "A parser corresponds to a parsing expression in the obvious way: bind and then to sequence, or to ordered choice, option to e?, many and skip_many to e*, many1 to e e*, count(n) and ranges to e…e (e (e…)?)?, sep_by(p, s) to (p (s p)*)?, many_till(p, e) to (!e p)* e and with ranges to p…p (e / p (e / p (…e))), look_ahead to &e, eof to !., take_while(f) to [f]*, take_till(f) to [^f]* &[f], string to a literal, decimal to [0-9] [0-9]*, signed(p) to [-+]? p, and calls of functions to nonterminals. Then on the last slice the parser succeeds and leaves y if and only if the expression does, by the usual definition; it fails (with an error, or incomplete) if and only if the expression fails; it does not return if and only if the expression has no outcome; and it never panics. Values and closures have no influence. A success or an error on a slice which is not the last one is an outcome of the expression for every continuation of the input. Every parsing expression grammar can be written with the library, including !e, for which there is no combinator.", "quantifier": "for all grammars with finitely or infinitely many nonterminals, well-formed or not, all parsers written like their expressions, all inputs and item types", "why_tests_cant": "It is a statement about all grammars and all inputs, with both directions and the case that there is no outcome.", "anchors": ["src/parse_result.rs: bind, then, map, map_err, inspect", "src/parsers.rs: any, satisfy, satisfy_with, token, not_token, peek, peek_next, take, take_while, take_while1, take_till, take_remainder, string, eof", "src/combinators/mod.rs: count, option, or, many, many1, sep_by, sep_by1, many_till, skip_many, skip_many1, matched_by, look_ahead", "src/combinators/bounded.rs: many, skip_many, many_till", "src/ascii.rs: decimal, signed"]}
{"id": "C93", "title": "Slice parsers and repetitions of item parsers agree", "statement": "take_while(f) is many(satisfy(f)) and take_while1(f) is many1(satisfy(f)), with the items in a Vec; take_till(f) is many_till(any, look_ahead(satisfy(f))): same values, remainders, errors and requests, on every slice, last or not. count(n, any) matches what take(n) matches, but asks for one item at a time where take asks for all that are missing. many(any) is take_remainder on the last slice and Incomplete(1) on any other. string(s) matches what one token(c) after the other for the items of s matches; they differ in failures: tokens fail at the first item which is different, while string asks for all missing items first, so that it may wait for input although what is there cannot match. The programs of the benchmark (count, many and many1 of any over a slice stream) return all of the data and leave the stream empty.", "quantifier": "for all predicates, strings, item types, inputs, modes and captured states; the benchmark for data of any length but 0", "why_tests_cant": "These are equalities of parsers on all inputs.", "anchors": ["src/parsers.rs: take, take_while, take_while1, take_till, take_remainder, string", "src/combinators/mod.rs: count, many, many1, many_till, look_ahead", "benches/combinators.rs"]}
{"id": "C94", "title": "Parsers see items only through closures and comparisons", "statement": "Take two parsers written down in the same way with the parsers and combinators of the crate, one for items of type I and one for items of type J, whose closures, comparisons and collections do the same on items related by some relation R. On inputs of the same length and mode with related items they do the same: same effects, panics and divergence, same kind of outcome, same request, remaining input of the same length with related items, related values and related errors. So translating the items before parsing is translating the outcome afterwards; items with positions attached, and ignored in comparisons, are parsed as the bare items, and values and errors then tell the positions; and items which no closure and no comparison of a parser tells apart are interchangeable. The same holds for parse_only, for parse on a slice stream, and for the retry loop around two sources which cut the data in different ways.", "quantifier": "for all item types, relations, parsers built from the crate's functions with related closures (with effects, panics or divergence), collections, inputs, modes, captured states, streams and buffers", "why_tests_cant": "It quantifies over all item types, relations and parsers.", "anchors": ["src/parsers.rs", "src/combinators/mod.rs", "src/combinators/bounded.rs", "src/parse_result.rs", "src/lib.rs: parse_only", "src/buffer/slice.rs: parse", "src/buffer/stateful.rs: parse"]}
{"id": "C95", "title": "Messages tell what happened", "statement": "What Error, ParseError and StreamError print with {:?} tells the value: different values print differently, also within other values, if this holds for items (and error types, and I/O errors) and none of them prints nothing or begins with a closing bracket; integers are such items. Display of Error tells the error as well, unless items print like slices. With verbose_error the errors the crate makes name what was wanted; without the feature they all read the same. description tells the kind of the error and no more. unwrap, expect and unwrap_err panic exactly on the other kinds of results; the message of unwrap tells whether there was an error or input was missing, which error and how many items were asked for, that of unwrap_err the value or the number of items; that of expect begins with the given text and tells the error, but not how many items were asked for. In particular token(i, t).unwrap() on another item ends in Expected(t), and take(i, n).unwrap() tells n minus the number of items there.", "quantifier": "all items, errors, slices, numbers, results and texts; all ways of printing items and errors which are readable", "why_tests_cant": "Tests show the text of a few values; that no two values share a text is a statement about all pairs of values, of any length.", "anchors": ["src/parsers.rs:416-459", "src/parsers.rs:496-521", "src/parse_result.rs:295-382", "src/parse.rs:6-13", "src/buffer/mod.rs:51-66"]}
{"id": "C96", "title": "Derived comparisons are orders", "statement": "If items, values and errors are totally ordered and their == agrees with the order, so are Input, State, ParseResult and Error; == is an equivalence if theirs is, and identity if theirs is (two results are equal only if kind, mode, remaining input and value are the same); what is equal is hashed in the same way, and what is different is hashed differently if this holds for items, values and errors (those of the crate with verbose_error; without the feature there is only one); partial_cmp is cmp, and where items cannot be compared it gives up at the first such pair, unless items in front of it differ. Successes come before errors and errors before incomplete results. Successes are ordered by whether their input is the last slice, then by what remains, then by their values; errors by where they are, then by their values; incomplete results by what they ask for. Slices are ordered as words in a dictionary.", "quantifier": "all orders of items, values and errors; all inputs, results and errors", "why_tests_cant": "Transitivity, antisymmetry and agreement of ==, cmp, partial_cmp and hash are statements about all pairs and triples of values and about every item type.", "anchors": ["src/input.rs:77-78", "src/parse_result.rs:17-31", "src/parse_result.rs:82-83", "src/parsers.rs:416-424", "src/parsers.rs:496-497", "src/parse.rs:6-13"]}
{"id": "C97", "title": "A Source reads no more than is needed", "statement": "A call of `parse` reads the data source only while fewer items are buffered than the last Incomplete asked for (than one, if there was none), and not at all if the parser is not waiting for more. So a retry loop with a parser made of the parsers and combinators of the library (without `peek`, `eof`, `take_remainder`, `many_till`) never reads the data source once the items are there on which the parser comes to its verdict. In a dialogue, where each message is sent only after the one before has been answered, every message which its parser recognises without looking behind its end is read without waiting for data which has not been sent. `read` and `fill_buf` are different: they go on reading until the slice given or the buffer is full, or nothing more comes.", "quantifier": "every data source and way of cutting the data, every sequence of parsers and messages, both buffers; parsers not made of the library's as long as they do not ask for more than k items", "why_tests_cant": "Tests use slices and readers which never block, so a superfluous read has no visible effect there.", "anchors": ["src/buffer/stateful.rs:81-120", "src/buffer/stateful.rs:170-193", "src/buffer/stateful.rs:206-246"]}
{"id": "C98", "title": "Reading lines, items or everything from a Source between parses", "statement": "The methods which Source inherits from io::Read and io::BufRead: over a FixedSizeBuffer of any size, `read_until` appends exactly the data up to and including the delimiter (or the rest of the stream) to the vector, `split` gives the pieces between delimiters, `read_exact` the next n items or an error if there are fewer, and `read_to_end` everything; `take(n)` read to its end gives the next n items or all if there are less, and no others, and does not touch the source for n = 0; `bytes` gives everything, in order; `read_line` and `read_to_string` append the next line or everything to a string if it is valid UTF-8, and otherwise leave the string as it is, but what was read is gone from the source; only I/O errors other than Interrupted end them early, and then nothing is lost or duplicated, except for what the check for UTF-8, or collecting the pieces or bytes into a Result, discards. A later retry loop continues right behind what has been taken, also if the parser was waiting for more. `read_exact`, `read_to_end`, `read_to_string`, `take` and `bytes` do the same over a GrowingBuffer without limit, and so do `read_until`, `read_line` and `split` once it has some capacity, but over a new GrowingBuffer `read_until` and `split` report the end of any stream at once. With a limit, once the memory is above it, `read_until` and `split` take the end of the memory for the end of the stream, and `read_exact`, `read_to_end`, `take` and `bytes` may also report the end early, in that case only; what they have not taken is not lost, but calling `read_until` again does not give it.", "quantifier": "every stream, way of cutting it and I/O errors, every delimiter, buffer size and limit, slice length, and state of the Source", "why_tests_cant": "The loops of the standard library meet the loop of fill_requested, the compaction of the buffer and its boundaries in ways which depend on lengths and on how the data is cut.", "anchors": ["src/buffer/stateful.rs:81-101", "src/buffer/stateful.rs:170-199"]}
{"id": "C99", "title": "Digits into floating point numbers", "statement": "`decimal::<f32>` and `decimal::<f64>` (any binary floating point type) never panic or fail on digits and consume all of them. Integers up to 2^24 or 2^53 are read exactly. Beyond that, the result is off by at most 4k in 2^24 or 2^53, where k is the number of digits which follow a prefix that is not above it; too large results are infinite: f32 is finite up to 3.40*10^38 and infinite from 3.41*10^38, f64 finite up to 1.7976*10^308 and infinite from 1.7977*10^308. It is not the nearest number of the type: integers which the type has are read as other ones, and 167772169 as a larger f32 than 167772170. `signed` changes nothing but the sign, also of zero and infinity.", "quantifier": "every run of digits, whatever follows it, every precision and range of the type, both modes, either build", "why_tests_cant": "The error depends on all the digits through up to two roundings per digit, and there are infinitely many runs of digits; the integers which are not read exactly are rare among small ones.", "anchors": ["src/ascii.rs:123-131", "src/ascii.rs:150-163"]}
{"id": "C100", "title": "A GrowingBuffer of items without a size stays empty", "statement": "If the items have no size, such as (), a Source over a GrowingBuffer never gets any: whatever methods are called, nothing is handed out, the buffer stays empty and of capacity 0, and the data source keeps all it has. parse on a new Source answers EndOfInput, after any I/O errors, for every parser, without running it, however many items there are. (Slices and a FixedSizeBuffer of such items work like others.)", "quantifier": "every data source, limit, parser, history of calls, debug and release builds", "why_tests_cant": "No test of the crate uses such items, and a run shows one source and one parser only.", "anchors": ["src/buffer/buffer.rs: request_space", "src/buffer/buffer.rs: fill", "src/buffer/stateful.rs: parse"]}
{"id": "C101", "title": "A check on the text of a grammar after which its parser always returns", "statement": "Let the rules of a parsing expression grammar with finitely many nonterminals be accepted in rounds: first compute which nonterminals consume an item if they succeed, then in each round accept those rules in which nothing is repeated that might not consume, and in which only nonterminals accepted before are used until an item has been consumed. If all rules are accepted after as many rounds as there are rules, then parsers written with the library like these rules return on every input, on the last slice or any other, without a panic; nonterminals said to consume do; calls are nested at most (number of rules) times (number of items + 1) deep; every nonterminal succeeds or fails on every input, and parse_only tells which. The check accepts every grammar for which there is a ranking as in C91, and no other: left recursion, direct, indirect or behind something which may be empty, does not pass.", "quantifier": "for all grammars with finitely many nonterminals, all parsers written like their expressions, all inputs, modes and states of closures", "why_tests_cant": "Termination on all inputs is not observable, and the equivalence is about all grammars.", "anchors": ["src/parse_result.rs: bind, then", "src/combinators/mod.rs: or, option, many, many1, sep_by, sep_by1, many_till, skip_many, skip_many1, look_ahead, count", "src/combinators/bounded.rs: many"]}
{"id": "C102", "title": "A stream is parsed as the grammar says, wherever it is cut", "statement": "Let a parser be written like a nonterminal of a grammar which passes the check of C101, out of parts which do not depend on where the input is cut (C09). Called in a retry loop on a Source which is able to buffer the data, with something left to read, it returns: a value if and only if the nonterminal matches the data still ahead, and then the source has moved to exactly where the match ends; and otherwise a parse error or incomplete. At the end of the data a nonterminal which consumes gives no value. Reading value after value until there is none stops, and gives the values which the parser gives one after the other on a single slice with all of the data; they end where the greedy repetition of the nonterminal ends. It does not matter in which pieces the data arrives, nor which I/O errors occur on the way.", "quantifier": "for all such grammars and parsers, all data, all ways to cut it, all I/O errors in between, all lawful buffers which are large enough, debug and release builds", "why_tests_cant": "Quantifies over all grammars, all data and all ways to cut it, and includes termination.", "anchors": ["src/buffer/stateful.rs: parse, fill", "src/parse_result.rs: bind, then", "src/combinators/mod.rs", "src/combinators/bounded.rs: many", "src/parsers.rs"]}
{"id": "C103", "title": "Parsers give the values their grammar says, also if what follows depends on values", "statement": "Consider grammars whose rules give values and are built from items, sequences in which what follows may depend on the value before it, ordered choice, repetition, lookahead, the matched slice and scanning with a state. If functions which may call each other are written with the library like the rules of such a grammar, then on the last slice a function succeeds with a value and leaves some input if and only if the rule gives this value and leaves this input; it fails if and only if the rule fails; it does not return if and only if the rule has neither outcome; and it neither panics nor does anything undefined. parse_only gives the value of the rule on a beginning of the slice. In streaming mode, a success or an error of a parser which does not depend on where the input is cut is right for every continuation of the input. decimal without overflow checks is the rule for a digit followed by any digits, with the number they stand for modulo the size of the type as its value, and signed negates what its parser gives after a minus sign. Every such grammar can be written with the library. With a ranking as in C91 the functions return; a retry loop on a Source then gives the value which the rule gives on the data ahead and moves to where the rule ends, and reading value after value gives the list of values which the repetition of the rule gives, wherever the data is cut.", "quantifier": "for all grammars of this form, finite or not, with any types of values, all parsers written like them, all inputs, all states of closures, all data, cuts and I/O errors for sources which are able to buffer the data, debug and release builds", "why_tests_cant": "Quantifies over all grammars, all functions from values to rules, and all inputs, and includes that a parser does not return.", "anchors": ["src/parse_result.rs: bind, then, map, map_err, inspect", "src/parsers.rs", "src/combinators/mod.rs", "src/combinators/bounded.rs", "src/ascii.rs: decimal, signed", "src/buffer/stateful.rs: parse, fill"]}
{"id": "C104", "title": "How often closures are called", "statement": "How often a parser calls its closures on n items is bounded by a polynomial in n which can be read off its text, if it has no recursion and only repeats parsers which consume where there is no limit: a closure given to satisfy, token or map is called at most once, one given to take_while, take_till, scan or run_scanner at most n times, one given to string at most once for each item of the string; the parts of a sequence and both alternatives of or are added up; count and a range with a limit k multiply by k (the end of many_till is tried up to two times more), and repetition without a limit multiplies by n + 1 (n + 2 with separators or a range before an end). So the degree is the number of repetitions inside each other, and no smaller degree will do: for every d there are parsers with d nested repetitions for which it is at least (n / d) ^ d. This holds whether the run succeeds, fails or is incomplete, and for parse_only. On a Source, parsing until the answer is not to retry calls closures at most (n + 2) times as often as a run on all n items which are ahead may, however they are cut. For functions which call themselves or each other, bounds for the calls which give the same bounds for the bodies are bounds, where what follows something that consumes counts with one item less. There need be no such polynomial, since nothing is remembered when or goes back: s = a s b or a s c or nothing calls itself 2^(n+1) - 1 times on n times a, whereas s = a s (b or c) or nothing gives the same result on every input with at most n + 1 calls.", "quantifier": "for all parsers written in this way and all counters their closures may change, all inputs, modes and states, all data, cuts and I/O errors for sources, debug and release builds, with and without verbose_error", "why_tests_cant": "Bounds for all parsers and all lengths of inputs; a test measures one parser on one length, and exponential growth does not show on short inputs.", "anchors": ["src/parse_result.rs: bind, then, map, map_err, inspect", "src/parsers.rs", "src/combinators/mod.rs: or, option, look_ahead, sep_by, many, many_till, skip_many, count", "src/combinators/bounded.rs", "src/buffer/stateful.rs: parse"]}
{"id": "C105", "title": "What was written is read back", "statement": "Let values be written as texts in a format, and let a parser read the format back: from the text of a value, followed by something allowed, it returns the value and stops where the text ends. Then parse_only returns the value; no two values are written in the same way, and no text can be divided in two ways; a retry loop on a Source returns the value and leaves the rest, however the data arrives; and reading value after value until the end of a stream gives all the values which were written, in order and without an error, whatever their sizes with a growing buffer, and with a fixed buffer if each text fits. Parsers which read back can be put together: each primitive reads back its items or texts (take_while if no further item follows or the input ends, take_till and scan if the item at which they stop follows, decimal every number of its type and signed every number of its type except the smallest, as Lean prints them, if no digit follows); a sequence, if what the second part is written like may follow the first; or, if the first alternative fails on what is written for the second; option, many, many1, count, sep_by, sep_by1, many_till and skip_many, if items may follow each other and what comes after the list cannot be taken for an item or a separator (for many_till: if the end parser does not succeed where an item begins); map, map_err, inspect and matched_by; and functions which call themselves or each other, for values nested to any depth. For example a parser with sep_by reads back every list of numbers, and a recursive parser every S-expression of words, also line by line from a stream.", "quantifier": "for all formats, values and texts, all parsers put together in this way, all rests which are allowed, both kinds of slices, all captured states, all ways in which the data arrives, debug and release builds", "why_tests_cant": "Quantifies over all formats, values of any size and depth, everything that may follow them, and all ways to cut a stream; round trip tests sample values one by one and from complete slices.", "anchors": ["src/parsers.rs", "src/parse_result.rs: bind, then, map, map_err, inspect", "src/combinators/mod.rs", "src/combinators/bounded.rs", "src/ascii.rs: decimal, signed, skip_whitespace", "src/buffer/stateful.rs: parse, fill"]}
{"id": "C106", "title": "Which parsers call Clone, and what for", "statement": "Whatever Clone does for the items and for mapped items (it may have effects, panic, not return or return something else): peek and peek_next clone the first item once, if there is one, and return the clone; satisfy_with clones the first item once, maps the clone, clones the mapped item once to ask about the clone, and returns the mapped item itself; take_till clones each item just before it asks about the clone, up to and including the one at which it stops, and returns a slice of the original items. So they are the parsers which only copy, with clone composed with the closures, and they are those parsers if clone only copies. All that holds of every parser assembled from the library (remainders, stability, retrying on streams) holds of them, and they do not panic if neither Clone nor a closure does. peek_next returns the item which any would return, on all inputs, if and only if clone returns a copy.", "quantifier": "for all implementations of Clone, all closures, all inputs, both kinds of slices, all captured states", "why_tests_cant": "Quantifies over all implementations of Clone and all inputs; the tests only use u8 and chars, for which it is a copy.", "anchors": ["src/parsers.rs: satisfy_with, peek, peek_next, take_till"]}
{"id": "C107", "title": "The names parse! uses itself do not meet those of the program", "statement": "A block in parse! sees exactly the local variables of the program: `parse!{input; block}` evaluates the input expression once, before anything else, and then behaves as the parser the block means where every name in the block is the variable of the program with that name (or the one bound by an earlier let in the block), even if these are named i or l as the variables the macro binds itself. Which identifiers the macro takes and what else is in scope makes no difference. With no block, or only a semicolon, the result is the input itself.", "quantifier": "for all blocks the macro accepts, all scopes, all meanings of the Rust expressions in the block, and all ways of telling identifiers of expansions apart from those of the program", "why_tests_cant": "A test uses some names; capture shows only when the program happens to use the names of the macro at the place where they are bound, of which there are unboundedly many by nesting.", "anchors": ["src/macros.rs:427-430", "src/macros.rs:438-440", "src/macros.rs:453-456", "src/macros.rs:464-476", "src/macros.rs:480-540", "src/macros.rs:573-585"]}
{"id": "C108", "title": "If the next item decides, closures are called linearly often", "statement": "If the text of a parser shows that the next item decides what to do (the alternatives of every or and option begin with different items; where something may have read on in vain and gone back to an item, what follows does not begin with this item; what is repeated consumes), then there are numbers a and c, read off the text, such that a run on n items calls the counted closures at most a * n + c times, whether it succeeds, fails or is incomplete, also with nested repetitions, sep_by, many_till and functions which call themselves. A success of a parser which does not go back calls them in proportion to what it consumed only, whatever follows. A list of numbers asks its predicate at most n + 1 times, nested lists take at most n + 1 calls and exactly that many on n opening brackets. The condition is needed: it fails for every choice of a and c for s = a s b or a s c or nothing, which takes exponentially many calls.", "quantifier": "for all parsers with such a text (including systems of mutually recursive functions), all inputs of any length, all closures which count their calls, and all states they have captured", "why_tests_cant": "A test measures some inputs; whether the time stays proportional to the length for all inputs, also malformed ones, is a statement about all of them.", "anchors": ["src/combinators/mod.rs:66-106", "src/combinators/mod.rs:108-326", "src/combinators/bounded.rs", "src/parsers.rs:45-260", "src/parse_result.rs:142-204"]}
{"id": "C109", "title": "The text of the functions, run as Rust, does what the other properties say of them", "statement": "The text of the functions of input.rs, parse_result.rs, parse.rs, parsers.rs and ascii.rs and of the combinators, with all kinds of bounds, run step by step by the rules of Rust (evaluation from left to right, early return, loops, variables declared mut, closures which capture them, macros, structs with methods and &mut to their fields, iterators, short-circuit operators, patterns, panics of indexing, slicing and subtraction), does the same as the functions which the other properties are about: for all arguments the same result, the same panics, and the same calls of the closures, of PartialEq and of Clone in the same order. The text never does anything which has no meaning, and an early return or break never leaves it.", "quantifier": "for all inputs, all arguments, all closures and functions passed (which may have effects, panic or not return), all implementations of PartialEq, PartialOrd and Clone for the item, value and error types, of From without effects (with effects: C115) and of arithmetic for the number type, all collections (implementations of FromIterator which may ask for next and size_hint in any order, have effects, panic or not return), with and without verbose_error, in debug and release builds", "why_tests_cant": "A test runs the text on some arguments. That the text means the function it is taken for, for all arguments and closures, has to be proved from the text.", "anchors": ["src/input.rs", "src/parse_result.rs", "src/parse.rs", "src/parsers.rs", "src/ascii.rs", "src/combinators/mod.rs", "src/combinators/bounded.rs", "src/combinators/macros.rs"]}
{"id": "C110", "title": "The text of the buffers and data sources, run as Rust, does what the other properties say of them", "statement": "The text of buffer.rs and data_source.rs, run step by step by the rules of Rust, with memory in which some items are uninitialised, does the same as the functions which the properties about buffers and streams are about: making a buffer, Deref and DerefMut, fill, request_space, consume, len and capacity of FixedSizeBuffer and GrowingBuffer, and new, into_inner and read of ReadDataSource and IteratorDataSource return the same, leave the same memory, positions and reader or iterator, and panic or have undefined behaviour in the same cases.", "quantifier": "for all buffers, also those no public function makes, all sizes, limits and numbers of items, all readers, iterators and data sources (which may report more than they wrote, fail, and yield items after the end), all allocators (how much more than asked for they yield), in debug and release builds", "why_tests_cant": "The functions are unsafe: a test cannot see that memory was read which nobody wrote. That the text means the function it is taken for has to be proved from the text.", "anchors": ["src/buffer/buffer.rs", "src/buffer/data_source.rs"]}
{"id": "C111", "title": "The text of the streams, run as Rust, does what the other properties say of them", "statement": "The text of stateful.rs, slice.rs and the conversion of errors in buffer/mod.rs, run step by step by the rules of Rust over the text of the buffers and data sources, does the same as the functions which the properties about streams are about: Source::{new, from_read, from_iter, with_buffer, fill, len, is_empty, capacity, buffer, reset, set_autofill}, its io::Read::read, io::BufRead::{fill_buf, consume} and parse, SliceStream::{new, len, is_empty}, its parse, into_stream of a slice, and StreamError::from return the same, leave the same stream, buffer, data source and slice of the caller, call the parser with the same input, and panic, have undefined behaviour or do not end in the same cases.", "quantifier": "for all streams, also those no public function makes, over both buffers of the crate and over readers, iterators and data sources of any kind, all parsers (which may have effects, panic, not end, or return a remainder which is no suffix), all requests and slices to read into, in debug and release builds", "why_tests_cant": "A stream is a state machine over flags, requests and positions; a test sees a few of its states. That the text means the function it is taken for has to be proved from the text.", "anchors": ["src/buffer/stateful.rs", "src/buffer/slice.rs", "src/buffer/mod.rs"]}
{"id": "C112", "title": "The rules of parse! and parser!, matched as macro_rules! does, expand to what the documented grammar says", "statement": "The text of the rules of parse! and parser! (and of the rules they use), matched token tree by token tree as rules of macro_rules! are, expands every block of the documented grammar to the expression which the other properties of the macro are about: the operators, statements and terms are put together in the documented way, the input is passed on, the identifiers of the rules are not those of the user, and so the expansion means what the grammar says. Nothing else expands, apart from a `;` at the end, an input with no block, which gives the input back, and invocations beginning with `@`.", "quantifier": "for all inputs and blocks of any length and nesting, all expressions, types and patterns in them, all ways Rust might parse those fragments which obey the laws stated, all limits on nested invocations", "why_tests_cant": "There are over eighty rules, most of them unrolled, each of which is tried in turn on every invocation, with no way back once a fragment is parsed; a test uses a few of them. That the rules as written act as the grammar says has to be proved from the text of the rules.", "anchors": ["src/macros.rs:428", "src/macros.rs:438", "src/macros.rs:447", "src/macros.rs:601"]}
{"id": "C113", "title": "The text of the equality of stream errors, of is_empty of buffers and of the messages of errors, run as Rust, does what the other properties say of them", "statement": "The text of StreamError::eq, of the provided Buffer::is_empty, and of Display::fmt and Error::description of the errors, with and without the feature verbose_error, run step by step by the rules of Rust, does the same as the functions which the properties about comparing and printing errors are about: the same stream errors are equal (those of the operating system never), a buffer is empty in the same cases (and panics in the same cases), and the same text is written after what has been written. With C109 to C112, the text of every function of the crate is covered.", "quantifier": "for all stream errors over all items with any pure equality and errors of the user with any pure equality or of the crate, all buffers of both kinds, also those no public function makes, all errors and all ways items print", "why_tests_cant": "A test compares a few pairs of errors and prints a few of them. Here the text of the source is evaluated for all values at once.", "anchors": ["src/buffer/mod.rs:68", "src/buffer/buffer.rs:46", "src/parsers.rs:437", "src/parsers.rs:450", "src/parsers.rs:510", "src/parsers.rs:518"]}
{"id": "C114", "title": "The text of the example program, run as Rust from the command line to the line it prints, counts the requests in the file", "statement": "The text of every function of examples/http_parser.rs, run step by step by the rules of Rust together with the text of the crate's functions it calls, does what the properties about the program say: each of its predicates and parsers agrees with the corresponding parser of the grammar, on every slice. main panics without printing if there is no argument or if the file cannot be opened. If the file, however the operating system splits it, consists of requests of at most 6 KiB each, fewer than 2^31, main prints exactly one line, \"num: \" and their number, and returns; if the file is anything else, it panics and prints nothing; with 2^31 requests or more, a debug build panics and a release build prints the number modulo 2^32 as a signed one. The parse! blocks in the text are what the text of the macro expands them to.", "quantifier": "for all slices and modes, all files without read errors of a length that fits into a usize and all ways of reading them piece by piece, all arguments, with and without verbose_error, debug and release builds, any state of the world outside", "why_tests_cant": "Running the program on a file shows what one file gives with one way of splitting reads. Here the source of the program and of the crate is evaluated for all of them at once.", "anchors": ["examples/http_parser.rs:35", "examples/http_parser.rs:67", "examples/http_parser.rs:75", "examples/http_parser.rs:82", "examples/http_parser.rs:98", "examples/http_parser.rs:108", "examples/http_parser.rs:121", "examples/http_parser.rs:132"]}
{"id": "C115", "title": "When errors are converted, and conversions which do something", "statement": "bind and then call From::from exactly once if the first parser fails, with its error and after it has failed, and not at all if it succeeds or is incomplete; the error of the second parser is not converted. So they are map_err with the conversion followed by a bind which converts nothing, and what holds of all parsers assembled from the library holds with such conversions, whatever From does (it may have effects, panic or not return). Left identity holds for every conversion; bind with ret is map_err; associativity holds if and only if converting twice does the same as converting at once, including effects. sep_by and sep_by1 convert the error of a separator which fails after an item although they drop it: what From does there happens, and if it panics, sep_by panics instead of returning the items. They convert at most one error, however many items there are. The text of these functions, run as Rust, does just that.", "quantifier": "for all implementations of From (with any effects on captured state, panicking or not returning), all parsers and closures, all inputs and states, all collections (for the number of conversions: Vec)", "why_tests_cant": "The claims are about every implementation of From and every parser, and about calls which do not happen; a test sees one conversion, usually one without effects, whose call and result cannot be told from no call.", "anchors": ["src/parse_result.rs:142", "src/parse_result.rs:179", "src/combinators/mod.rs:182", "src/combinators/mod.rs:223"]}
{"id": "C116", "title": "Collections which do something while they are filled", "statement": "Whatever an implementation of FromIterator does while many, many1, count, the ranges, many_till, sep_by or sep_by1 fill it (it may change captured state, panic or not return between any two of its calls of next and size_hint, stop early, or call next again after None), what comes out is this and nothing else: the parser runs only when the collection asks for the next item, once for each time it asks, where the last success ended and with the state as the collection and the parser have left it; after a failure the collection gets None, and if it asks again the parser is tried again at the same place; when the largest number of items has been handed out it gets None and no parser runs; size_hint is what is left of the bounds after the items so far. many_till tries its end before each item, as often as its bounds say, and gives None when it succeeds. When the collection returns, the result is its value with the rest of the input after the last success if there were enough items (and, after an incomplete parser, if the largest number has been reached or the input has ended), and the last failure otherwise; a panic of the collection, of a parser or of From is the panic of the whole. A result with data always has a number of items within the bounds. The collections without effects which the other properties are about are among these, release builds do the same, and the text of all these functions, run as Rust, does just that.", "quantifier": "for all implementations of FromIterator (with any effects on captured state, panicking or not returning), all parsers, separators, ends and conversions of errors, all bounds which are not reversed, all inputs and states", "why_tests_cant": "A test fills Vec or another collection of the standard library, which neither has effects nor asks again after None. The order of effects of an arbitrary collection and of arbitrary parsers can only be settled for all of them at once.", "anchors": ["src/combinators/macros.rs:5", "src/combinators/macros.rs:105", "src/combinators/bounded.rs", "src/combinators/mod.rs:182", "src/combinators/mod.rs:223"]}
{"id": "C117", "title": "A Source on top of a buffer of one's own", "statement": "Source can be used with any buffer a user implements, and asks no more of it than this: its contents are a list, len is its length, consume drops from the front, request_space keeps the contents and either panics or makes the space if the buffer can hold that much, and fill appends all that it reads (in as many reads as it likes), does not claim more than that, claims nothing only after a read which found nothing if there is space left, and returns an error only if its last read did. Then no operation of the Source (parse, fill, read, fill_buf, consume, reset, set_autofill, in any order) loses, duplicates or reorders an item; parse runs the parser on what was held followed by what has been read and keeps what the parser leaves; fill sets the end of input flag exactly if the request is not met, and then the source had nothing left; every operation returns, and panics only if request_space does or the parser does or its request overflows; and repeating parse on Retry and I/O errors gives what the parser gives on all of the data at once, at the same position, whatever the buffers of two Sources are, and ends on every finite stream if the parser does and asks for at least one item. The buffers of the crate do what is asked. With any other implementation without undefined behaviour of its own, Source has no undefined behaviour either. The demands are needed: a buffer which claims an item it has not kept makes fill spin, and one which claims to have found nothing without reading makes the end of the input appear while the source has data.", "quantifier": "all implementations of Buffer with the laws stated (all whatsoever, for the absence of undefined behaviour), all sources honouring the contract of DataSource, all parsers assembled from the library, all histories of operations of any length, debug and release builds", "why_tests_cant": "The trait Buffer is public and may be implemented in any way; tests use the two buffers of the crate, each of which reads once per fill.", "anchors": ["src/buffer/buffer.rs:15-55", "src/buffer/stateful.rs:60-246"]}
{"id": "C118", "title": "Reading numbers into a type of one's own", "statement": "decimal and signed work with any type which has the conversions and operations they ask for, whatever these do (they may change captured state, panic or not return). On a run of digits which is known to be complete, decimal converts 0 and then, for each digit, converts 10, multiplies what it has by it (from the left), converts the digit and adds it (from the right): 1 + 2n conversions, n multiplications and n additions, in this order and nothing else, and it returns what the last addition did; if one of them panics or does not return, neither does decimal. If there is no complete run of digits, the type is not touched at all, the result is the same for all types, and the captured state stays as it is, so that a number arriving in pieces is calculated once. If the operations keep to what their numbers stand for, the result stands for the value of the digits, with its sign for signed. signed converts 1 before it looks at the input, also if a sign follows (then the sign is converted too, and the 1 is not used) and also if there is no input yet: so a type whose conversion of 1 panics cannot be used even with a sign, and what the conversion does happens once for every attempt on a stream, which depends on the chunks. Then the parser runs, and its number is multiplied by the sign from the left; errors stay as they are. For operations without effects these are the functions of the other properties, what holds of all parsers assembled from the library holds with such numbers, and the text of these functions, run as Rust, does just that.", "quantifier": "for all types of numbers (any implementations of ValueFrom<u8>, ValueFrom<i8>, Add and Mul, with any effects on captured state, panicking or not returning), all parsers given to signed, all inputs, modes and states", "why_tests_cant": "The claims are about every number type and about the operations which are not run; a test uses built-in integers, whose operations leave no trace of their number and order.", "anchors": ["src/ascii.rs:123", "src/ascii.rs:150", "src/ascii.rs:161"]}
{"id": "C119", "title": "Data sources which do something", "statement": "A data source, reader or iterator may change state which the closures of the parsers also see, panic, or not return. Whatever it does: fill, read and fill_buf of a Source call read one call after the other, each finding the state as the one before left it, and append exactly what the calls have yielded; they stop when there is enough, or when a call yields nothing or an error (which is what they then report), and do not call read at all if there is enough from the start. They return unless a call of read does not return, in which case they end as it did, or there is no room for what was requested. parse makes all its calls of read first; after that the parser is run at most once, on what was held followed by what was read, in the state the last call left, and the source is not touched any more. parse fails to return only if a read or the parser does. Over any sequence of operations, with anything happening to the state in between, no item is lost, duplicated or reordered. A source made from an iterator calls next until the slice is full or next yields nothing, and not once more. For sources without effects all this is the behaviour of the other properties.", "quantifier": "all source types, reads as arbitrary computations on an arbitrary state, all states of the Source, buffers whose fill calls read once (both of the library do), all built parsers on the same state, both build modes, all histories", "why_tests_cant": "the source is an arbitrary program sharing state with the parsers; the order of effects has to be right for all of them", "anchors": ["src/buffer/stateful.rs:81-120", "src/buffer/stateful.rs:172-246", "src/buffer/data_source.rs:6-90", "src/buffer/buffer.rs:122-130", "src/buffer/buffer.rs:229-237"]}
{"id": "C120", "title": "What a data source finds in the slice", "statement": "The documentation forbids a data source to read from the slice it has to fill, which nothing enforces, and an io::Read in a ReadDataSource is given the very same slice. Whatever a source makes of what it finds there (as long as it claims no more than fits and than it has stored), after any calls of fill, request_space and consume on a new buffer: everything in the slice which has ever been written was stored there by this source in an earlier call, so nothing else is disclosed; fill calls read once with this slice and returns its answer, without a panic; and the buffer is still a queue: what was consumed, followed by what it holds, is what has been handed over. The slice of a new FixedSizeBuffer, and of a new GrowingBuffer once space is requested, has never been written at all, so that a source which reads from it reads uninitialised memory. When a FixedSizeBuffer has been filled completely, k items are consumed and space is requested, the slice shows the last k items delivered, including items the buffer still holds. For a source which does not look all this is fill as in the other properties.", "quantifier": "all sources as functions of the contents of the slice, all item types, sizes, limits and allocators, both build modes, all histories of fill, request_space and legal consume", "why_tests_cant": "the source is an arbitrary function of the contents of memory, over histories of any length", "anchors": ["src/buffer/data_source.rs:6-22", "src/buffer/data_source.rs:43-50", "src/buffer/buffer.rs:82-154", "src/buffer/buffer.rs:201-278"]}
