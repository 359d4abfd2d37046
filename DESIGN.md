# Formal model of blake2_simd in Lean 4 — design

The subject is the Rust workspace in `/repo` (crates `blake2b_simd`, `blake2s_simd`, `blake2_bin`), read as text. The model and
the proofs are in `/verif/lean/Verif` (Lean 4.33.0, core library; one Mathlib module, `Mathlib.Logic.Function.Basic`, for
`Function.Bijective`). Build with `lake build` in `/verif/lean`.

The properties are listed in `properties.jsonl`, their theorems in `MANIFEST.json` and in section 5. The experiments with wrong
programs are in `seeded/LOG.jsonl`, see section 7.

## 1. Layout

Specifications. None of these files refers to the model; they are what a reader must know to read the theorems.

| file | content |
|---|---|
| `Basic.lean` | `Byte`, `Alg` (`b` or `s`), word size and counter width |
| `Spec.lean` | RFC 7693 and the BLAKE2 paper: `G`, rounds, `F`, parameter block, initial value, frames (block, counter, flags), keyed hashing, the BLAKE2bp/sp tree, hexadecimal text |
| `ApiSpec.lean` | what the builder calls mean; histories of calls on a population of hashers, and what they return |
| `WorldSpec.lean` | the same for whole programs over all public types, including the text `Debug` prints and the documented panics |
| `EarlySpec.lean` | what a job of `hash_many` starts from; going on with a hash from a chaining value, without the key |
| `CostSpec.lean` | how many units of time a call and a program are allowed |
| `CaughtSpec.lean` | programs that catch panics: what a client holds and is told afterwards, and which values may be spoilt |
| `CliSpec.lean` | what the command line tool accepts, reads and prints; the operating system as a parameter |
| `ArgSpec.lean` | what the words of a command line say |
| `SecuritySpec.lean` | calls of the compression function and what a collision between two of them is |
| `TraceSpec.lean` | the compressions RFC 7693 prescribes for a message (`rfcCalls`), those due in each operation of a history (`Op.Logs`), and what of them is visible without the contents of blocks (`shapes`) |
| `XofSpec.lean` | BLAKE2X, after its own document |
| `IterSpec.lean` | what an iterator hands out before its first `None` |
| `LeakSpec.lean` | which inputs an observer of branches and addresses should not be able to tell apart |
| `SecretSpec.lean` | the same for programs over the whole API, where something may be printed if it is the same in both |
| `ProcessSpec.lean` | what the tool should do with a world in which output may fail, as a list of effects in order |
| `ThreadSpec.lean` | which values a call takes by `&mut`; schedules of calls |
| `VectorSpec.lean` | when a test vector is right |

Model (`Model/`). Every definition cites the file and lines it models.

| file | models |
|---|---|
| `Base.lean` | faults; checked slicing, indexing, arithmetic |
| `Intrinsics.lean` | the SSE/AVX intrinsics that occur in the code, after Intel's pseudo code |
| `Portable.lean` | `portable.rs` of both crates |
| `BAvx2.lean`, `BSse41.lean`, `SSse41.lean`, `SAvx2.lean` | the SIMD files: `compress_block`, `compress1_loop`, transposition, rounds, `compressN_loop` |
| `NWay.lean` | what the four N-way loops have in common (they are written with the same structure in four files) |
| `Guts.lean`, `Impl.lean` | `guts.rs`: platform detection, `degree`, dispatch, `final_block`, `input_debug_asserts`, counters |
| `Lib.lean` | `lib.rs`: `Params`, `State`, `Hash`, `io::Write`, `Debug` |
| `Many.lean` | `many.rs`: `compress_many`, `fill_jobs_vec`, `evict_finished`, `update_many`, `HashManyJob`, `hash_many` |
| `Iter.lean` | `many.rs` with the client's iterator as an arbitrary state machine, and the adapters of the standard library around it (`Peekable`, `FlatMap`, `Filter`, `Map`, `Fuse`) |
| `Unwind.lean` | `many.rs` again, for an iterator that panics: what the caller finds after catching the panic. `C47_no_panic` says it is `Many.lean` otherwise |
| `Leak.lean` | the same functions a third time, with a log of every branch, every computed position in an array or slice and every entry into a function compiled for a CPU feature: what timing and caches are usually assumed to reveal. A ghost as well: `Proofs/LeakErase.lean` proves that without the log these are the functions above. What is not logged is listed at the head of the file; whether the log is complete is a matter of reading it next to the Rust code |
| `LeakWorld.lean` | the programs of `World.lean` with that log; `core::fmt` counts as revealing the text it prints |
| `Trace.lean` | all functions from the `guts.rs` loops up to the public API again, with a log of the compressions they run. The log is a ghost: `C48_ghost` says that without it these are the functions above |
| `InPlace.lean` | the builder calls again, as updates in place: what the caller finds after catching the panic of a rejected call. `inPlace_eq` says they are those of `Lib.lean` otherwise |
| `Raw.lean` | the loops of the compression functions again, with pointers, `ptr.add` and unchecked loads |
| `Target.lean` | the functions that convert between words and bytes, or call one that does, on any target: byte order, and without what is compiled on x86 only |
| `Threads.lean` | threads making calls, one at a time in any order |
| `Process.lean` | `main` of the tool with its effects in order and output streams that may refuse a line |
| `Reference.lean` | the reference implementation of the tree hash in the test modules, a client of the sequential API |
| `Xof.lean`, `Tests.lean`, `Vectors.lean` | other clients of the API in the tests: BLAKE2X, the fuzz targets, the randomised tests, the vector tests |
| `KatData.lean`, `Kat.lean` | `tests/blake2-kat.json`, the vectors themselves |
| `FuzzMany.lean` | `tests/fuzz_many.rs` with its generator of inputs |
| `DocExamples.lean` | the examples in documentation comments and README files |
| `RunAllTests.lean` | `run_all_tests/src/main.rs` |
| `GutsTests.lean` | the unit tests of `guts.rs`: the loops against the portable code, detection, degree |
| `UnitTests.lean` | `test.rs`, `test_hash_many`, `test_update_many` with their tables and expected outputs |
| `CliTests.lean` | `blake2_bin/tests/test.rs` |
| `Benches.lean` | `benches/bench.rs`, `benches/bench_multiprocess/src/main.rs`, without the timing |
| `SnevesIntrinsics.lean`, `SnevesB.lean`, `SnevesRound.lean`, `SnevesBp.lean`, `SnevesSp.lean` | the C library in `benches/blake2-avx2-sneves/blake2-avx2`, with each of its three ways to load a message (`Permute`; the build script chooses `PERMUTE_WITH_SHUFFLES`, the others are the gathers and the loads one by one). Memory is modelled as for slices: a load or store outside the buffer passed in is `ub` |
| `SnevesLib.lean` | the Rust crate around it, with its test |
| `Par.lean` | `blake2bp.rs`, `blake2sp.rs` |
| `Api.lean`, `World.lean` | sequences of calls, performed by the model functions; `io::copy` and `write_all` of the standard library |
| `Bin.lean` | `blake2_bin/src/main.rs` |
| `Args.lean` | the command line of the tool: the fields of `Opt` with their attributes, and the parser made of them |

Proofs are in `Proofs/` (helper lemmas, invariants, refinements) and `Properties/` (the property theorems, with lemmas needed
only there, and an `example` beside each group of theorems that meets the hypotheses in a concrete, non-trivial case).

## 2. Modelling decisions

* **Two crates.** They are near copies. `inductive Alg | b | s` selects the crate; definitions take `a : Alg`. Where the code
  differs (SIMD files, parameter packing, constants, dispatch) there are two definitions. All theorems are for both.
* **Faults.** Panics, undefined behaviour and non-termination are values: `Res α = Except Fault α`,
  `Fault = panic | ub | diverge`. Checked slicing and indexing, `assert!`, `debug_assert!`, `unwrap`, `ArrayVec::push` on a full
  vector and overflow of `u8`, `u16` and `usize` give `panic`; an unchecked read outside the slice gives `ub`; loops that are
  not structurally recursive carry fuel and give `diverge` when it runs out. A theorem that ends in `= .ok …` therefore also
  says that none of the three happens.
* **Data.** Slices are `List Byte`, words `BitVec 64/32`, counters `BitVec 128/64`, SIMD registers `BitVec 128/256`. Counter
  arithmetic wraps exactly where the code wraps.
* **`usize`** is a `Nat` with an explicit check (`addUsize`) where the code adds without a bound that follows from a slice.
  Slices are of any length; no theorem assumes a bound on it, except those that speak of counter overflow
  (C43, C44: below `2^(2w)` bytes; C07: see section 6; C68: below `2^63` bytes, since the C code takes lengths as 64-bit words and compares
  them as signed numbers).
* **`&mut`** parameters become returned values. In the batch code `Job.words : &mut [Word; 8]` becomes an index into a store;
  that Rust borrows it exclusively is the hypothesis that the indices of a batch are distinct, nothing more.
* **Laziness.** The iterators in `update_many`, `hash_many` and `compress_many` are lazy in the model as in the code: the closure
  of an item runs when the scheduler pulls the item, and its effects are visible from then on.
* **Build mode.** `dbg : Bool` tells whether debug assertions and overflow checks are compiled in, where that is observable
  (`count`, `as_array`, `to_hash`, `Debug`). Everywhere else the model has all checks on and they are shown never to fire.
* **Platforms.** The platform is a parameter of everything, ranging over `Portable`, `SSE41`, `AVX2`. `detect` is modelled with
  CPU features and target configuration as inputs (C31).

## 3. What is not modelled

* The benchmarks of other libraries (libsodium, OpenSSL, ring, KangarooTwelve; but the vendored AVX2 library is modelled, C68) and the measuring
  of time in `benches/`, and the crates the tests use (`duct`, `tempfile`, `serde_json`,
  the random generators and the fuzzer: what they deliver is an argument).
* The Rust compiler, LLVM and the CPU. Timing beyond branches and addresses in the source (C41, C58) and their number (C74), code size, stack use, alignment faults.
* `constant_time_eq`, `arrayref`, `arrayvec`: their documented behaviour. `constant_time_eq` is modelled as its published loop.
* In the command line tool: `structopt` and `clap` (`Model/Args` models what their documentation says of the words C65 speaks of; all other
  properties start from the parsed options), words that are not Unicode, the text of operating system errors;
  output is delivered line by line (C55); `hex::decode` is `Spec.unhex`; `memmap` is a function from a length to bytes or an error.
* `{:#?}`: every `Debug` is one `write!`, which ignores the flags of the formatter, so the text is that of `{:?}`. `Hash::as_ref` (the same as `as_bytes`), `Default` (the same as `new`), `Copy` of `Hash`.
* Threads: a call is one step (C56). The crates have no locks, atomics or statics; that a step can be taken as a whole rests on Rust's
  guarantee that calls running at the same time share only what both take by `&`.
* Targets other than x86: `Model/Target` repeats, for C71, the functions that convert between words and bytes; all other properties read
  `from_le_bytes` and `to_le_bytes` by their documentation.
* A panic ends the model's run, except where the caller could catch it and still hold a changed value: a panicking iterator in the batch
  calls (`Unwind.lean`, C47) and a panicking builder call (`InPlace.lean`, C51). The other calls that can panic take `&self`.

## 4. Trusted base

Lean's kernel. The axioms `propext`, `Classical.choice` and `Quot.sound`, per theorem in section 5; no axiom is added, there is no
`sorry`, `native_decide` or `bv_decide`. Then, outside what a proof can settle: that the definitions in `Model/` say what the cited
Rust lines do, that `Intrinsics.lean` agrees with Intel's documentation, and that `Spec.lean` is RFC 7693 and
`XofSpec.lean` is BLAKE2X (checked with the 3072 published vectors, `C57_kat_right`).

Two scripts help with reading the model against the code; they prove nothing. `tools/compare.py` compares long runs of similar text
token by token: the rounds of the vectorised compression functions in Rust and C, the wrappers of intrinsics, the transposes, `SIGMA`, `IV`,
the expected values of the tests and the 3072 vectors (no differences). `tools/coverage.py` lists the lines of Rust no comment cites.

Where values written in /repo are compared with the specification (C57, C63, C66) the kernel evaluates them. `Proofs/FastEval.lean` has
functions on natural numbers that the kernel evaluates quickly, and proves that they are the functions of the specification.
`Proofs/KernelRfl.lean` is a tactic that hands `Eq.refl` to the kernel without letting the elaborator evaluate first; the kernel checks the
term like any other.

## 5. Properties and theorems

Method: the central results are refinements. Each `compress_block` equals `Spec.F` (lane by lane for SIMD); the loops equal folds
of `F` over the frames of the input (`Absorb`, `NWayLoop`); a state after any calls satisfies an invariant relating it to parameters
and bytes fed (`StateInv`, `ParSpec`), which is an induction over the history (`History`); the scheduler of `compress_many` keeps an
invariant by which the remaining work of every queued job leads to its target (`ManyInv`), with the number of blocks left as
measure. The properties are corollaries of these or use them.

What is modelled for each property and how it is proved:

| id | modelled | proof |
|---|---|---|
| C01, C02, C03 | `Params`, setters, `to_words`, `hash`, `State`, portable / AVX2 / SSE4.1 `compress_block` and `compress1_loop`, intrinsics | refinement to `Spec`: each `compress_block` equals `Spec.F`; the loop equals a fold of `F` over chunks (induction on the offset); the parameter words equal IV xor parameter-block words |
| C04, C05, C06, C29, C34 | `State.update`, `fill_buf`, `compress_buffer_if_possible`, `finalize`, `set_last_node` | representation invariant relating a state to (params, bytes fed), preserved by every operation; induction over operation lists |
| C07 | `count` in debug and release mode | arithmetic on `BitVec (2w)`; the debug build panics when a keyed state has been fed between 2^(2w)-bb and 2^(2w) bytes: proved as a counterexample, `_partial` theorem elsewhere |
| C08, C35 | `Platform` parameter of everything | corollary of refinement: results do not mention the platform |
| C09, C10, C11, C12, C23, C32, C33 | `compress_many`, `fill_jobs_vec`, `evict_finished`, `update_many`, `HashManyJob`, `hash_many`, N-way loops | queue invariant: each queued job's remaining work applied to its current words gives the target; measure = blocks left; induction |
| C13, C14, C15, C39 | `blake2bp.rs`, `blake2sp.rs` | refinement to the tree spec; invariant for the two-stripe buffer |
| C16, C17, C18 | setters | case analysis; equality of resulting `Params` |
| C19 | `to_words` | injectivity of the packed words from injectivity of the byte layout |
| C20, C21 | `Hash`, `bytes_to_hex` | list induction |
| C41 | `constant_time_eq` and the operators of `Hash` in `Model/Leak` | the log is an explicit function of the two lengths, by induction on the loop |
| C22 | all of the above | all refinement theorems conclude `.ok` |
| C24 | `io::Write` | definitional plus refinement |
| C25, C26, C27 | `blake2_bin/src/main.rs` with a scripted reader/file system | induction over the script; case analysis on options. OS behaviour is a parameter; parsing is C65 |
| C28, C37 | `add_to_counts`, `round`, `compressN_transposed`, transposes | lane homomorphism: `lane i` commutes with all vector operations |
| C30 | Debug formatters as functions producing text | noninterference by congruence |
| C31 | `detect`, `degree`, `MAX_DEGREE` | finite case analysis over the complete configuration space |
| C36 | constant tables | integer square roots evaluated in the kernel; permutation check over the complete table |
| C38 | `g`, `round` | explicit inverse |
| C40 | blocks/padding/counter framing | injectivity by reconstruction |
| C42 | `count` and its subtraction | exact value of the counter modulo `2^(2w)` from the state invariant |
| C43, C44, C45 | `Params::hash` through its refinement | walk back from the last frame: equal outputs of different calls are a collision, equal calls have equal frames, and frames and parameter block are injective |
| C46 | all public types together (`WorldSpec`, `Model/World`) | simulation: each value of the model stands for a value of the specification, every call preserves it; induction over the program |
| C47 | `many.rs` with an iterator that panics at any point (`Model/Unwind`) | the scheduler invariant of C09/C10 at the moment of the panic; witnesses by evaluation |
| C48 | `Model/Trace`: the same code, logging every compression pass with the messages it serves; specification `TraceSpec` (`rfcCalls`, `Op.Logs`) | erasure of the log; then at any point the calls made for a hasher are all but the last of those prescribed for the bytes so far, which is an invariant; an abstract scheduler (`Proofs/Sched`) for the batches; for trees a ledger of how many calls each leaf has made (`POp.Logs`, `Proofs/TracePar*`) |
| C49 | `Model/Trace`; `shapes` drops block contents | two related runs have states with equal lengths and counters, hence equal shapes; the abstract scheduler is natural in the type of calls |
| C50 | `Model/Trace`; passes with their width | the abstract scheduler: a loop level is left only when fewer entries than lanes remain; `C50_passes` counts: full passes are bounded by the compressions, the others by those of the few jobs left over |
| C51 | builder calls statement by statement on a `Params` in memory (`Model/InPlace`) | each call either runs to its end or stops at its assertion, before the first assignment; induction over the calls |
| C52 | `blake2bp_reference` (`Model/Reference`) | the history invariant for each leaf; the bytes dealt to leaf `i` are the blocks `i` modulo the degree |
| C53 | `blake2x_test` and its hashers (`Model/Xof`), against `XofSpec` | C03 for each call; induction over the loop |
| C54 | fuzz targets, `fuzz_many.rs` with its generator of inputs (`Model/FuzzMany`), `test_against_reference` (`Model/Tests`), unit tests of `guts.rs` (`Model/GutsTests`) | C09, C10, C52 and the history invariants; the loop lemmas of `Absorb` and `NWayLoop`, and that jobs of equal lengths make equally many calls |
| C55 | `main` with its effects in order, output streams that may refuse a line (`Model/Process`), against `ProcessSpec` | induction over the inputs; prefixes of the list of effects are the crash points |
| C56 | threads over the whole API, calls as steps (`Model/Threads`); `ThreadSpec` says what a call takes by `&mut` | frame theorem for every call; induction over the schedule |
| C57 | `vector_tests.rs` with the file of vectors as an argument (`Model/Vectors`), against `VectorSpec` | C03, C13, C53 for each call, both ways; induction over the file. The file in /repo (`Model/Kat`): its 3072 vectors by evaluation in the kernel |
| C58 | `Model/Leak`; `LeakSpec` says which clients an observer should not be able to tell apart | a relational logic (`Same`: equal logs, related results), a lemma per function, states related by everything except words and bytes; for `to_hex` the converse, the log determines the digest. Whole programs (`SecretSpec`, `Model/LeakWorld`): the same logic over the memory of C46; calls that print need what is printed to be the same, which the refinement of C46 gives |
| C59 | `Model/Iter`, any `next : σ → Option κ × σ`; `IterSpec.Yields` | the fused iterator stands for the queue of `Model/Many`; the invariant of the scheduler (`ManyInv`) carried over, with the iterator's state |
| C60 | the logs of `Model/Trace` | from C48 (the logs are those of the RFC) and the injectivity of the framing; only the last call is flagged, so a prefix is the whole |
| C61 | `Model/Leak`, which also logs the entry into each function with a `#[target_feature]` | a logic for single runs (`Uses`: everything entered is allowed, the result keeps the implementation), a lemma per function; induction over the history or the program; `detect` by cases |
| C62 | `Model/Raw`: the loops again, with pointers (object and offset), `ptr.add` and loads that are undefined outside the object, and assertions only in debug builds | reading a block in pieces is reading the block (one lemma per `transpose_msg_vecs`); equality of functions with the loops of `Model/Impl`; without the assertions, induction on the loop with offset and last offset multiples of the stride |
| C63 | the tests of `test.rs` and `many.rs` (`Model/UnitTests`) and of the tool (`Model/CliTests`), expected outputs and inputs as arguments | the history invariants, C10, C27 both ways, for all arguments; then the values in /repo are compared with RFC 7693 by evaluation in the kernel |
| C64 | the benchmarks of this library, with allocation and shuffling as arguments (`Model/Benches`) | the state of the rotating list of offsets after any number of runs; C01, C02, C10, C13 |
| C65 | the table of options of `Opt` and a parser after the documentation of `structopt` and `clap` (`Model/Args`); a small grammar of command lines (`ArgSpec`) | the parser collects exactly the items of a line, by induction over the items; decimal numerals by strong induction; fields one by one; C27 |
| C66 | the examples in the documentation comments and README files (`Model/DocExamples`), expected outputs, calls and inputs as arguments | the history invariants, C10, C65, for all arguments; then the values in /repo by evaluation in the kernel |
| C67 | `run_all_tests/src/main.rs` (`Model/RunAllTests`), the outcome of each command an arbitrary function of what ran before | induction over the list of commands |
| C68 | the C library in `benches/blake2-avx2-sneves` function by function (`Model/Sneves*`), the crate around it, the benchmarks of it | each round and each way to load a message word is the round of the specification in every lane; induction over the loops, with the counters of all lanes; then the tree as in C13 |
| C69 | the tests of C54, C63 and C66 with an argument in the place of the tested function (`…Of` in `Model/Tests`, `UnitTests`, `DocExamples`, `GutsTests`) | a run of the test is a sequence of calls and assertions; each is unfolded to an equivalence, the expected values being known from C10, C13, C52 |
| C70 | `HashManyJob::new`, `to_hash`, `hash_many` with a panicking iterator (`Model/Many`, `Unwind`), against `EarlySpec` | the words of a fresh job; hashing key block and message is resuming from the words after the key block |
| C71 | every function that converts words, from `from_ne_bytes` and `swap_bytes` up, without what is compiled on x86 only (`Model/Target`) | the conversions are the documented ones on either byte order; function by function equality, then C46 |
| C72 | `Hash` and all calls of C46 (`Model/World`) | the stores of two runs agree in everything the hashes show: preserved by every call; a pair of inputs for the exception, by evaluation in the kernel |
| C73 | all calls of C46, with the memory a caught panic leaves (`Model/Caught`, from `Model/InPlace` and `Model/Unwind`), against `CaughtSpec` | the run is beside a run of C46 that does not panic: the stores are equal but for the chaining words of spoilt values, and no branch or length depends on those words; preserved by every call |
| C74 | `Model/Leak` and `LeakWorld`: the time of a run is the length of its log, in which every turn of a loop, test, bounds check and position is an entry; `CostSpec` says how many units a call is allowed | a logic for bounds (`Takes`: at most so many entries, and a fact about the result), a lemma per function; for the scheduler of the batches a potential, the blocks left in the jobs and in the queue; induction over the program with the invariant of C46 |

Axioms: A = propext, Classical.choice, Quot.sound; B = propext, Quot.sound; P = propext; none.

| id | property | status | file | theorems (axioms) |
|---|---|---|---|---|
| C01 | blake2b() computes BLAKE2b | proved | `Properties/Hashing.lean` | `C01_blake2b` (A) |
| C02 | blake2s() computes BLAKE2s | proved | `Properties/Hashing.lean` | `C02_blake2s` (A) |
| C03 | Params::hash and Params::to_state compute parameterised/keyed BLAKE2 | proved | `Properties/Hashing.lean` | `C03_params` (A), `C03_nonvacuous` (B) |
| C04 | update is insensitive to how input is split | proved | `Properties/Hashing.lean` | `C04_update_split` (A) |
| C05 | finalize is a pure observation | proved | `Properties/Hashing.lean` | `C05_queries_change_nothing` (B), `C05_finalize_value` (A) |
| C06 | set_last_node may be called at any time | proved | `Properties/Hashing.lean` | `C06_set_last_node` (A) |
| C07 | State::count reports the bytes fed | partial | `Properties/Hashing.lean` | `C07_count_partial` (A), `C07_count_release` (A), `C07_count_debug_counterexample` (A) |
| C08 | Results do not depend on the SIMD implementation | proved | `Properties/Hashing.lean`, `Properties/Tree.lean` | `C08_histories` (A), `C08_hash` (A), `C08_compress1` (A), `C08_tree_histories` (A), `C08_tree_hash` (A) |
| C09 | update_many equals individual updates | proved | `Properties/Batch.lean` | `C09_update_many` (A) |
| C10 | hash_many equals Params::hash | proved | `Properties/Batch.lean` | `C10_hash_many` (A) |
| C11 | hash_many is idempotent | proved | `Properties/Batch.lean` | `C11_idempotent` (A), `C11_C12_batches` (A) |
| C12 | to_hash before hash_many is detected in debug builds | proved | `Properties/Batch.lean` | `C11_C12_batches` (A) |
| C13 | blake2bp/blake2sp one-shot hash equals the tree specification | proved | `Properties/Tree.lean` | `C13_blake2bp` (A), `C13_blake2sp` (A), `C13_params` (A) |
| C14 | blake2bp/blake2sp incremental hashing equals one-shot | proved | `Properties/Tree.lean` | `C14_update_split` (A), `C33_tree_histories` (A) |
| C15 | blake2bp/blake2sp finalize is pure and count is exact | proved | `Properties/Tree.lean` | `C15_queries_change_nothing` (B), `C15_finalize_value` (A), `C15_count` (A), `C15_count_release` (A) |
| C16 | Builder methods panic exactly on out-of-range arguments | proved | `Properties/Params.lean` | `C16_panics_iff` (B), `C16_tree_panics_iff` (B) |
| C17 | Key, salt and personalisation padding and replacement | proved | `Properties/Params.lean` | `C17_empty` (A), `C17_padding` (A), `C17_replaced` (A), `C17_tree_empty` (A), `C17_tree_replaced` (A) |
| C18 | Builder calls commute | proved | `Properties/Params.lean` | `C18_last_call_wins` (A), `C18_commute` (A), `C18_tree_commute` (B), `C18_tree_last_call_wins` (A) |
| C19 | Parameters are domain separated | proved | `Properties/Params.lean` | `C19_domain_separation` (A), `C19_tree` (A) |
| C20 | Hash output, hex and equality are exact | proved | `Properties/Output.lean` | `C20_length` (A), `C20_tree_length` (A), `C20_bounds` (A), `C20_hex` (A), `C20_equality` (A) |
| C21 | Hash from array and as_array | proved | `Properties/Output.lean` | `C21_from_array` (A), `C21_as_array` (A) |
| C22 | No panic, no undefined behaviour, termination | proved | `Properties/Safety.lean` | `C22_histories` (A), `C22_tree_histories` (A), `C22_other_calls` (A), `C22_compression_loops` (A) |
| C23 | Batch scheduling always makes progress | proved | `Properties/Batch.lean` | `C23_every_task_exactly_once` (A), `C23_every_pass_completes_a_job` (A) |
| C24 | io::Write for State | proved | `Properties/Hashing.lean`, `Properties/Tree.lean` | `C24_write` (B), `C24_io_copy` (A), `C24_tree_write` (B), `C24_tree_io_copy` (A) |
| C25 | The command line tool hashes exactly the bytes of its input | proved | `Properties/Cli.lean` | `C25_stdin` (A), `C25_file` (A), `C25_mmap` (A) |
| C26 | Command line flags map to parameters | proved | `Properties/Cli.lean` | `C26_accepted_iff` (B), `C26_accepted` (A), `C26_rejected` (B), `C26_big_small` (B), `C26_plain` (B) |
| C27 | Command line exit status and output lines | proved | `Properties/Cli.lean` | `C27_files` (A), `C27_stdin` (A), `C27_exit_status` (A) |
| C28 | The byte counter carries correctly in SIMD lanes | proved | `Properties/Batch.lean` | `C28_simd_counters` (A), `C28_alignment_needed` (B) |
| C29 | Empty updates are no-ops | proved | `Properties/Hashing.lean`, `Properties/Tree.lean` | `C29_empty_update` (A), `C29_empty_update_many` (A), `C29_tree_empty_update` (A) |
| C30 | Debug output leaks no secrets | proved | `Properties/Output.lean` | `C30_params` (A), `C30_state` (A), `C30_job` (A), `C30_guts_job` (P), `C30_tree_params` (A), `C30_tree_state` (A) |
| C31 | Platform detection and degree | proved | `Properties/Primitives.lean` | `C31_detect` (none), `C31_available` (none), `C31_degree` (none), `C31_degree_is_lane_count` (A) |
| C32 | Batch order is irrelevant | proved | `Properties/Batch.lean` | `C32_split` (A), `C32_permute` (A), `C32_hash_many_split` (A), `C32_hash_many_permute` (A) |
| C33 | Arbitrary mixed histories refine a list of bytes | proved | `Properties/Hashing.lean`, `Properties/Tree.lean` | `C33_histories` (A), `C33_tree_histories` (A) |
| C34 | Clones are independent | proved | `Properties/Hashing.lean`, `Properties/Tree.lean` | `C34_frame` (A), `C34_clones_independent` (A), `C34_tree_frame` (B), `C34_tree_clones_independent` (B) |
| C35 | Forcing the portable implementation changes nothing | proved | `Properties/Hashing.lean`, `Properties/Tree.lean` | `C35_force_portable` (A), `C35_tree_force_portable` (A) |
| C36 | Constants are the specified ones | proved | `Properties/Primitives.lean` | `C36_iv` (B), `C36_sigma_permutation` (B), `C36_sigma_rows` (B) |
| C37 | Compression is lane-local | proved | `Properties/Batch.lean` | `C37_lanes` (A), `C37_batches` (A), `C37_hash_many` (A) |
| C38 | The chaining step is invertible in the message schedule | proved | `Properties/Primitives.lean` | `C38_round_bijective` (A), `C38_permutation_bijective` (A), `C38_no_internal_collision` (A), `C38_simd_rounds_bijective` (A) |
| C39 | The parallel leaves partition the input | proved | `Properties/Tree.lean` | `C39_leaf_bytes` (B), `C39_injective` (B), `C39_hash_of_leaves` (A) |
| C40 | Message framing is injective | proved | `Properties/Primitives.lean` | `C40_framing` (A), `C40_inputs` (B) |
| C41 | Constant-time comparison | proved | `Properties/Leak.lean`, `Properties/Output.lean` | `C41_constant_time` (B), `C41_hash_eq` (B), `C41_positions` (B) |
| C42 | Byte count at the limits of the counter | proved | `Properties/Hashing.lean`, `Properties/Tree.lean` | `C42_count_exact` (A), `C42_tree_count_exact` (A) |
| C43 | A collision of hashes is a collision of the compression function | proved | `Properties/Collisions.lean` | `C43_collisions` (A), `C43_injective` (A) |
| C44 | A collision of tree hashes is a collision of the compression function | proved | `Properties/Collisions.lean`, `Properties/CrossMode.lean` | `C44_tree_collisions` (A), `C44_tree_injective` (A), `C44_cross_mode` (A), `C44_cross_mode_plain` (A) |
| C45 | No length extension | proved | `Properties/Collisions.lean` | `C45_final_flag` (A), `C45_prefix_free` (A), `C45_no_extension` (A) |
| C46 | Whole-API programs | proved | `Properties/World.lean` | `C46_programs` (A), `C46_outcome` (A), `C46_platforms` (A), `C46_builds` (A) |
| C47 | A panicking iterator does bounded damage in the batch calls | proved | `Properties/Unwind.lean` | `C47_no_panic` (B), `C47_update_many` (A), `C47_hash_many` (A), `C47_torn_state` (B), `C47_torn_job` (B) |
| C48 | Exactly the prescribed compressions are run, once each and in order | proved | `Properties/Passes.lean`, `Properties/Trace.lean`, `Properties/TraceTree.lean` | `C48_ghost` (B), `C48_hash` (A), `C48_number` (A), `C48_histories` (A), `C48_fresh` (A), `C48_hash_many` (A), `C48_tree_ghost` (B), `C48_tree_hash` (A), `C48_tree_histories` (A) |
| C49 | The work done does not depend on the contents of keys and messages | proved | `Properties/Trace.lean`, `Properties/TraceTree.lean` | `C49_hash` (A), `C49_histories` (A), `C49_hash_many` (A), `C49_tree_hash` (A), `C49_tree_histories` (A) |
| C50 | hash_many, update_many and the tree variants keep the SIMD lanes busy | proved | `Properties/Passes.lean`, `Properties/Trace.lean`, `Properties/TraceTree.lean` | `C50_avx2` (A), `C50_passes` (A), `C50_simd` (A), `C50_limits` (A), `C50_update_many_avx2` (A), `C50_update_many_passes` (A), `C50_update_many_simd` (A), `C50_update_many_limits` (A), `C50_tree_update` (A), `C50_tree_hash` (A), `C50_tree_passes` (A) |
| C51 | A rejected builder call leaves the Params as it was | proved | `Properties/InPlace.lean` | `C51_rejected` (B), `C51_caught` (B), `C51_tree_rejected` (B), `C51_tree_caught` (B) |
| C52 | The tree hash can be put together from the sequential API | proved | `Properties/Reference.lean` | `C52_reference` (A) |
| C53 | BLAKE2X can be built on Params | proved | `Properties/Xof.lean` | `C53_blake2x` (A), `C53_out_of_range` (B) |
| C54 | The fuzz targets and randomised tests pass on every input | proved | `Properties/FuzzMany.lean`, `Properties/GutsTests.lean`, `Properties/Tests.lean` | `C54_fuzz_targets` (A), `C54_fuzz_hash_many` (A), `C54_fuzz_update_many` (A), `C54_against_reference` (A), `C54_exercise_compress1` (A), `C54_exercise_loops` (A), `C54_loop_tests` (A), `C54_detection` (none), `C54_random_draws` (A), `C54_random_tests` (A) |
| C55 | Killed, or with its output closed, the command line tool has printed a prefix of the right output | proved | `Properties/Process.lean` | `C55_files` (A), `C55_stdin` (A), `C55_status_zero` (A), `C55_undisturbed` (B) |
| C56 | Threads do not interfere | proved | `Properties/Threads.lean` | `C56_threads` (B), `C56_schedules` (B), `C56_answers` (A) |
| C57 | The vector tests accept exactly the right vectors | proved | `Properties/Kat.lean`, `Properties/Vectors.lean` | `C57_vector` (A), `C57_vectors` (A), `Kat.C57_kat_right` (A), `Kat.C57_kat` (A) |
| C58 | Secrets do not reach branches or addresses | proved | `Properties/Leak.lean`, `Properties/LeakWorld.lean` | `C58_histories` (A), `C58_tree_histories` (A), `C58_one_shot` (A), `C58_tree_one_shot` (A), `C58_hash_many` (A), `C58_verify` (A), `C58_to_hex_reveals` (B), `C58_programs` (A) |
| C59 | Batches stop at the first None of the iterator | proved | `Properties/Iter.lean` | `C59_update_many` (A), `C59_hash_many` (A) |
| C60 | The work of one run is never the beginning of that of another | proved | `Properties/PrefixFree.lean` | `C60_prefix_free` (A), `C60_tree_prefix_free` (A), `C60_histories` (A), `C60_tree_histories` (A) |
| C61 | No instruction the processor does not have | proved | `Properties/Feature.lean`, `Properties/LeakWorld.lean` | `C61_histories` (A), `C61_tree_histories` (A), `C61_one_shot` (B), `C61_hash_many` (B), `C61_force_portable` (B), `C61_programs` (A), `C61_portable_programs` (A) |
| C62 | Every unchecked read stays inside the bytes given | proved | `Properties/Raw.lean` | `C62_release_loops` (A), `C62_debug_loops` (A), `C62_same_results` (A) |
| C63 | The unit tests pass exactly when the values they expect are right, and they pass | proved | `Properties/CliTests.lean`, `Properties/UnitTests.lean`, `Properties/UnitTestsRun.lean` | `C63_update_state` (A), `C63_multiple_finalizes` (A), `C63_write` (A), `C63_all_parameters` (A), `C63_all_parameters_tree` (A), `C63_setter_tests` (B), `C63_hash_from` (A), `C63_test_hash_many` (A), `C63_test_update_many` (A), `C63_unit_tests` (A), `C63_cli_stdin` (A), `C63_cli_file` (A), `C63_cli_tests` (A) |
| C64 | The benchmarks run to the end and hash what they are credited for | proved | `Properties/Benches.lean` | `C64_offset_input` (B), `C64_bench_hash` (A), `C64_bench_hash_many` (A), `C64_offsets_correlated` (A), `C64_random_input` (B), `C64_bench_one` (A), `C64_bench_many` (A) |
| C65 | The command line means what the help text says | proved | `Properties/Args.lean` | `C65_command_line` (A), `C65_usage_error` (A), `C65_order` (A), `C65_stdin` (A), `C65_files` (A), `C65_help` (A), `C65_malformed` (A), `C65_every_option` (A), `C65_tests` (A) |
| C66 | The examples in the documentation are true | proved | `Properties/DocExamples.lean` | `C66_one_shot` (A), `C66_chain` (A), `C66_params` (A), `C66_state` (A), `C66_tree_one_shot` (A), `C66_tree_chain` (A), `C66_tree_params` (A), `C66_update_many` (A), `C66_hash_many` (A), `C66_examples` (A), `C66_readme` (A) |
| C67 | The program that runs all tests is green only if everything passed | proved | `Properties/RunAllTests.lean` | `RunAll.C67_run_all_tests` (A), `RunAll.C67_green` (A) |
| C68 | The C library the benchmarks compare with computes the same functions | proved | `Properties/Sneves.lean` | `C68_digests` (A), `C68_loads` (A), `C68_same` (A), `C68_no_avx2` (B), `C68_bench` (A), `C68_test_vectors` (A), `C68_kat` (A) |
| C69 | The tests that compare the library with itself notice every wrong answer | proved | `Properties/Notice.lean` | `C69_fuzz_hash_many` (A), `C69_fuzz_update_many` (A), `C69_test_hash_many` (A), `C69_test_update_many` (A), `C69_doc_hash_many` (A), `C69_doc_update_many` (A), `C69_against_reference` (A), `C69_exercise_compress1` (A), `C69_exercise_loop` (A), `C69_detection` (P), `C69_degree` (B) |
| C70 | What to_hash gives away before the job is run | proved | `Properties/Early.lean` | `C70_early` (A), `C70_stands_for_key` (A), `C70_torn` (A) |
| C71 | The answers do not depend on the kind of machine | proved | `Properties/Target.lean` | `C71_programs` (A), `C71_outcome` (A), `C71_hash` (A) |
| C72 | A hash shows its digest and nothing else | proved | `Properties/Hidden.lean` | `C72_programs` (A), `C72_release` (A), `C72_tree_release` (A), `C72_release_tells` (A) |
| C73 | Programs that catch panics go on with right values | proved | `Properties/Caught.lean` | `C73_attempts` (A), `C73_calls` (A) |
| C74 | Hashing takes linear time | proved | `Properties/Cost.lean` | `C74_call` (A), `C74_programs` (A), `C74_pieces` (A) |

## 6. Findings

* **C07 is false in one corner** and so partial: with overflow checks, `count()` of a keyed `State` panics when the input has
  wrapped the counter to less than the key block (`C07_count_debug_counterexample`); this takes more than 2^64 − 64 (BLAKE2s) or 2^128 − 128
  (BLAKE2b) bytes. `Debug` of a state calls `count` and panics with it. C42 states exactly when. For BLAKE2s the bound is within
  reach of the type, not of practice.
* **C28:** the SIMD counters carry correctly only because the low half of a counter is a multiple of the block size when they
  are used; `C28_alignment_needed` shows a misaligned counter for which they differ from the 128-bit (64-bit) sum. The callers
  meet the condition (`Source` invariants in `ManyInv`).
* **C12, C70:** in a release build `to_hash` of a job that was not run returns bytes that are no hash. For a keyed job they are the
  chaining value after the key block, from which the keyed hash of any message can be computed without the key
  (`C70_stands_for_key`): a program that asks too early and publishes the answer has published its key. A caught panic of the iterator has
  the same effect in debug builds (`C70_torn`). In a debug build a keyed job with empty input does not panic although it was not run;
  it is complete from the start.
* **C21:** in a release build `as_array` of a short hash reveals the bytes beyond the configured length: the whole output before it is cut (C72_release), so that it tells apart hashes
  that compare equal (C72_release_tells). No other call does (C72_programs).
* **C47:** the batch calls are not panic safe. `update_many` advances the counter and refills the buffer of a state when it takes
  the state from the iterator, and compresses its blocks only once enough states have been taken. If the iterator (or `as_ref`) panics in
  between and the caller catches it, up to degree − 1 states have the new `count()` but neither the old nor the new digest
  (`C47_torn_state`). `hash_many` sets `finished` when it takes the job, so a torn job passes the debug assertion in `to_hash`, returns
  wrong bytes, and is skipped by a second `hash_many` (`C47_torn_job`). The documentation says nothing about panics in the iterator.
* **C64:** in `bench_multiprocess`, `blake2b_hash_many` and `blake2s_hash_many` shuffle the offsets of an `OffsetInput` they then drop, and push
  a fresh one, so all inputs of a run are at the same offset modulo 512 (`C64_offsets_correlated`), which is what the comment above
  says they avoid. No hash is affected.
* **C41 and C58 are about the source**: branches taken and positions accessed. That the compiler adds no branches on secret data, and
  that the instructions used take the same time for all operands, cannot be expressed. `to_hex` indexes a table with the digest, so it
  does reveal it (`C58_to_hex_reveals`); a digest that is secret should be compared with `==`, not as text.

## 7. Wrong programs

In a scratch copy, a definition of the model is edited as a bug would change the program, everything that depends on it is rebuilt
with failing proofs replaced by `sorry`, and a theorem counts as failed if it depends on `sorryAx` afterwards or no longer exists.
`seeded/LOG.jsonl` has one line per attempt: the definition, the edit, the claim it breaks, the theorems that failed, and the
theorems tightened in consequence. An edit under which the theorem of the broken claim still proves means the theorem is too weak.

That holds for the edits made by hand. The lines whose `attempt` begins with `auto` (220 of 556) come from a script which makes one
textual edit to a definition, and they say less:

* The build stops at the first proofs that fail. `theorems_failed` is then computed: it lists the property theorems that use one of
  these proofs, directly or not. It was not checked whether each of them could be proved of the edited program in another way.
* The claim is only "the definition still does what its comment says". That the edit changes what a user sees was not established
  line by line. Some proofs are by unfolding, in particular those of `Proofs/Target.lean`, and refuse any change of the text, also a
  harmless one. Where this was noticed the line says so. A failed proof is thus weaker evidence there than in a line made by hand.
* Definitions for which none of the edits tried was a well-typed definition (76), edits that only append an empty list (3) and an edit inside a comment
  (1) are not in the log. Of these edits, one to `Matches.addPos` and the one in a comment left every proof intact, as they should.
