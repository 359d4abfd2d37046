{"id": "C01", "title": "blake2b() computes BLAKE2b", "statement": "blake2b_simd::blake2b(input) returns exactly the 64-byte BLAKE2b digest that RFC 7693 defines for that input (unkeyed, default parameters), whichever of the portable, SSE4.1 and AVX2 code paths the CPU selects.", "quantifier": "every byte string of every length; every platform the crate can dispatch to", "why_tests_cant": "The input domain is infinite and every block boundary, counter value and message word matters; test vectors only cover a few hundred short inputs and only the CPU they run on.", "anchors": ["blake2b/src/lib.rs: blake2b, Params::hash", "blake2b/src/portable.rs: compress_block, compress1_loop", "blake2b/src/avx2.rs: compress_block, compress1_loop", "blake2b/src/guts.rs: Implementation::compress1_loop"]}
{"id": "C02", "title": "blake2s() computes BLAKE2s", "statement": "blake2s_simd::blake2s(input) returns exactly the 32-byte BLAKE2s digest that RFC 7693 defines for that input, whichever of the portable and SSE4.1 code paths is selected.", "quantifier": "every byte string of every length; every platform", "why_tests_cant": "Infinite input domain, hand-written shuffle networks for every one of the ten rounds; vectors sample it.", "anchors": ["blake2s/src/lib.rs: blake2s, Params::hash", "blake2s/src/portable.rs: compress_block, compress1_loop", "blake2s/src/sse41.rs: compress_block, compress1_loop"]}
{"id": "C03", "title": "Params::hash and Params::to_state compute parameterised/keyed BLAKE2", "statement": "For any sequence of Params builder calls that does not panic, both Params::hash(input) and to_state().update(input).finalize() return the BLAKE2 digest for the parameter block (digest length, key length, fanout, depth, leaf length, node offset, node depth, inner length, salt, personalisation), last-node flag and zero-padded key block that the last call of each setter established, truncated to the requested length.", "quantifier": "every sequence of builder calls, every key, salt, personalisation and integer parameter, every input, both crates, every platform", "why_tests_cant": "The parameter space is astronomically large (key alone has 256^64 values) and interactions such as empty input with a key are corner cases.", "anchors": ["blake2b/src/lib.rs: Params", "blake2b/src/lib.rs: Params::to_words", "blake2b/src/lib.rs: Params::hash", "blake2b/src/lib.rs: State::with_params", "blake2b/src/lib.rs: State::update", "blake2b/src/lib.rs: State::finalize", "blake2s/src/lib.rs: Params", "blake2s/src/lib.rs: Params::to_words", "blake2s/src/lib.rs: Params::hash", "blake2s/src/lib.rs: State::with_params", "blake2s/src/lib.rs: State::update", "blake2s/src/lib.rs: State::finalize"]}
{"id": "C04", "title": "update is insensitive to how input is split", "statement": "Feeding a State any sequence of slices with update gives the same finalize() result as one update with their concatenation, and the same result as Params::hash of the concatenation.", "quantifier": "every list of slices (any number, any lengths, including empty ones), every parameter set, every platform", "why_tests_cant": "The number of ways to split an input is exponential and buffering has distinct branches at each block boundary.", "anchors": ["blake2b/src/lib.rs: State::update", "blake2b/src/lib.rs: State::fill_buf", "blake2b/src/lib.rs: State::compress_buffer_if_possible", "blake2b/src/lib.rs: State::finalize", "blake2s/src/lib.rs: State::update", "blake2s/src/lib.rs: State::fill_buf", "blake2s/src/lib.rs: State::compress_buffer_if_possible", "blake2s/src/lib.rs: State::finalize"]}
{"id": "C05", "title": "finalize is a pure observation", "statement": "finalize() returns the hash of exactly the bytes fed so far, can be called any number of times at any point, always with the same answer for the same history, and never changes what later update/finalize/count calls return.", "quantifier": "every history that interleaves update, finalize, set_last_node, count and clone on a State", "why_tests_cant": "Quantifies over every operation history.", "anchors": ["blake2b/src/lib.rs: State::finalize", "blake2b/src/lib.rs: State::update", "blake2s/src/lib.rs: State::finalize", "blake2s/src/lib.rs: State::update"]}
{"id": "C06", "title": "set_last_node may be called at any time", "statement": "Calling State::set_last_node(b) at any point before finalize is equivalent to having built the State with Params::last_node(b); only the last call before a given finalize matters and input already compressed is not affected.", "quantifier": "every history of update and set_last_node calls and every parameter set", "why_tests_cant": "The flag could leak into blocks compressed between calls; only quantifying over all histories excludes this.", "anchors": ["blake2b/src/lib.rs: State::set_last_node", "blake2b/src/lib.rs: Params::last_node", "blake2b/src/lib.rs: State::finalize", "blake2s/src/lib.rs: State::set_last_node", "blake2s/src/lib.rs: Params::last_node", "blake2s/src/lib.rs: State::finalize"]}
{"id": "C07", "title": "State::count reports the bytes fed", "statement": "count() equals exactly the total number of bytes passed to update since construction, excluding the key block.", "quantifier": "every history of updates, keyed and unkeyed, all totals (wrap-around of the counter type included)", "why_tests_cant": "The interesting totals (near the end of the 128-bit or 64-bit counter range) cannot be produced by a test.", "anchors": ["blake2b/src/lib.rs: State::count", "blake2s/src/lib.rs: State::count"]}
{"id": "C08", "title": "Results do not depend on the SIMD implementation", "statement": "For the same API calls the portable, SSE4.1 and AVX2 implementations produce identical results from every public function, so a hash computed on one machine verifies on another.", "quantifier": "every API history and every pair of platforms", "why_tests_cant": "CI runs on one CPU type, and equality must hold on every input.", "anchors": ["blake2b/src/guts.rs: Implementation::detect", "blake2b/src/guts.rs: Implementation::compress1_loop", "blake2s/src/guts.rs: Implementation::detect", "blake2s/src/guts.rs: Implementation::compress1_loop", "blake2b/src/avx2.rs", "blake2b/src/sse41.rs", "blake2s/src/avx2.rs", "blake2s/src/sse41.rs"]}
{"id": "C09", "title": "update_many equals individual updates", "statement": "many::update_many over any collection of (state, input) pairs leaves every State observably identical (finalize, count, further updates) to calling state.update(input) on each pair separately.", "quantifier": "every number of states, all input lengths in every order, every prior history of each state, every platform", "why_tests_cant": "The scheduler repacks leftover work of differently sized inputs into SIMD lanes; the number of length combinations is unbounded.", "anchors": ["blake2b/src/many.rs: update_many", "blake2b/src/many.rs: compress_many", "blake2b/src/many.rs: fill_jobs_vec", "blake2b/src/many.rs: evict_finished", "blake2s/src/many.rs: update_many", "blake2s/src/many.rs: compress_many", "blake2s/src/many.rs: fill_jobs_vec", "blake2s/src/many.rs: evict_finished"]}
{"id": "C10", "title": "hash_many equals Params::hash", "statement": "After many::hash_many, HashManyJob::to_hash for each job equals Params::hash for that job's own params and input.", "quantifier": "every number of jobs, every mixture of params and input lengths, every platform", "why_tests_cant": "Unbounded collections and input lengths, scheduling dependent on all lengths at once.", "anchors": ["blake2b/src/many.rs: hash_many", "blake2b/src/many.rs: HashManyJob::new", "blake2b/src/many.rs: HashManyJob::to_hash", "blake2b/src/many.rs: compress_many", "blake2s/src/many.rs: hash_many", "blake2s/src/many.rs: HashManyJob::new", "blake2s/src/many.rs: HashManyJob::to_hash", "blake2s/src/many.rs: compress_many"]}
{"id": "C11", "title": "hash_many is idempotent", "statement": "Running hash_many again on jobs that have already been run (alone or mixed with new jobs) changes no result.", "quantifier": "every sequence of hash_many calls over any subsets of any jobs", "why_tests_cant": "Quantifies over call histories.", "anchors": ["blake2b/src/many.rs: hash_many", "blake2b/src/many.rs: HashManyJob::finished", "blake2s/src/many.rs: hash_many", "blake2s/src/many.rs: HashManyJob::finished"]}
{"id": "C12", "title": "to_hash before hash_many is detected in debug builds", "statement": "In a debug build HashManyJob::to_hash panics if the job has not been finished, and never panics after hash_many; in a release build it never panics.", "quantifier": "every job, every history", "why_tests_cant": "Needs the flag to be exact in every history, including keyed jobs with empty input that finish at construction.", "anchors": ["blake2b/src/many.rs: HashManyJob::to_hash", "blake2b/src/many.rs: HashManyJob::new", "blake2s/src/many.rs: HashManyJob::to_hash", "blake2s/src/many.rs: HashManyJob::new"]}
{"id": "C13", "title": "blake2bp/blake2sp one-shot hash equals the tree specification", "statement": "blake2bp/blake2sp Params::hash(input) equals the BLAKE2bp (4-leaf) / BLAKE2sp (8-leaf) tree hash: leaf i hashes input blocks i, i+n, i+2n, ... with its own parameter block (and the key block when keyed), the root hashes the concatenated full-length leaf outputs, with last-node flags on the last leaf and the root.", "quantifier": "every input, every key and hash length, every platform", "why_tests_cant": "Upstream vectors contain no input longer than 255 bytes, less than one stripe.", "anchors": ["blake2b/src/blake2bp.rs: Params::hash, Params::to_words, finalize_root_words", "blake2s/src/blake2sp.rs: Params::hash, Params::to_words, finalize_root_words", "blake2b/src/many.rs: compress_many", "blake2s/src/many.rs: compress_many"]}
{"id": "C14", "title": "blake2bp/blake2sp incremental hashing equals one-shot", "statement": "Feeding a blake2bp/blake2sp State any sequence of slices and finalizing gives the tree hash of their concatenation; splitting is irrelevant.", "quantifier": "every list of slices, keys, hash lengths, platforms", "why_tests_cant": "The two-stripe buffering logic has several branches that depend on the exact residues of all lengths so far.", "anchors": ["blake2b/src/blake2bp.rs: State::update, State::fill_buf, State::compress_to_leaves, State::finalize", "blake2s/src/blake2sp.rs: State::update, State::fill_buf, State::compress_to_leaves, State::finalize"]}
{"id": "C15", "title": "blake2bp/blake2sp finalize is pure and count is exact", "statement": "finalize on a blake2bp/sp State is idempotent and does not disturb later calls; count() is exactly the number of bytes fed as long as that number (plus, in builds with overflow checks and with a key, the key blocks) is within the counter range (C42 says what happens beyond it).", "quantifier": "every history of update/finalize/count calls", "why_tests_cant": "Quantifies over histories and huge totals.", "anchors": ["blake2b/src/blake2bp.rs: State::finalize, State::count", "blake2s/src/blake2sp.rs: State::finalize, State::count"]}
{"id": "C16", "title": "Builder methods panic exactly on out-of-range arguments", "statement": "hash_length panics iff the length is 0 or above OUTBYTES; key, salt, personal panic iff longer than their maximum; inner_hash_length panics iff above OUTBYTES; blake2s node_offset panics iff offset >= 2^48; no other builder method ever panics.", "quantifier": "every argument value and every builder state", "why_tests_cant": "Unbounded argument ranges; iff statement.", "anchors": ["blake2b/src/lib.rs: Params::hash_length", "blake2b/src/lib.rs: Params::key", "blake2b/src/lib.rs: Params::salt", "blake2b/src/lib.rs: Params::personal", "blake2b/src/lib.rs: Params::node_offset", "blake2b/src/lib.rs: Params::inner_hash_length", "blake2s/src/lib.rs: Params::hash_length", "blake2s/src/lib.rs: Params::key", "blake2s/src/lib.rs: Params::salt", "blake2s/src/lib.rs: Params::personal", "blake2s/src/lib.rs: Params::node_offset", "blake2s/src/lib.rs: Params::inner_hash_length", "blake2b/src/blake2bp.rs: Params::hash_length, Params::key", "blake2s/src/blake2sp.rs: Params::hash_length, Params::key"]}
{"id": "C17", "title": "Key, salt and personalisation padding and replacement", "statement": "An empty key/salt/personalisation is equivalent to none; a shorter salt or personalisation is equivalent to the same value zero-padded; setting a value again completely replaces the earlier one (no bytes of a longer earlier value survive).", "quantifier": "every pair of earlier and later values of every length, every input", "why_tests_cant": "Stale bytes would only show for particular length combinations.", "anchors": ["blake2b/src/lib.rs: Params::key", "blake2b/src/lib.rs: Params::salt", "blake2b/src/lib.rs: Params::personal", "blake2s/src/lib.rs: Params::key", "blake2s/src/lib.rs: Params::salt", "blake2s/src/lib.rs: Params::personal"]}
{"id": "C18", "title": "Builder calls commute", "statement": "The order in which different builder methods are called is irrelevant; for the same method the last call wins.", "quantifier": "every sequence of builder calls", "why_tests_cant": "Quantifies over all call sequences.", "anchors": ["blake2b/src/lib.rs: Params", "blake2s/src/lib.rs: Params"]}
{"id": "C19", "title": "Parameters are domain separated", "statement": "Two parameter sets that differ in digest length, key length, fanout, depth, leaf length, node offset, node depth, inner length, salt or personalisation (as padded) start hashing from different chaining values; within BLAKE2bp/sp every leaf and the root start from pairwise different chaining values.", "quantifier": "every pair of valid parameter sets", "why_tests_cant": "Injectivity over an astronomically large domain.", "anchors": ["blake2b/src/lib.rs: Params::to_words", "blake2s/src/lib.rs: Params::to_words", "blake2b/src/blake2bp.rs: Params::to_words", "blake2s/src/blake2sp.rs: Params::to_words"]}
{"id": "C20", "title": "Hash output, hex and equality are exact", "statement": "A Hash has exactly hash_length bytes; to_hex is the lowercase two-digits-per-byte hex of those bytes and decodes back to them; two Hash values (or a Hash and a slice) compare equal iff their byte slices are equal.", "quantifier": "every hash value, every pair, every comparison slice of every length", "why_tests_cant": "Iff over all pairs of values, including different lengths.", "anchors": ["blake2b/src/lib.rs: Hash::as_bytes", "blake2b/src/lib.rs: Hash::to_hex", "blake2b/src/lib.rs: bytes_to_hex", "blake2b/src/lib.rs: PartialEq for Hash", "blake2s/src/lib.rs: Hash::as_bytes", "blake2s/src/lib.rs: Hash::to_hex", "blake2s/src/lib.rs: bytes_to_hex", "blake2s/src/lib.rs: PartialEq for Hash"]}
{"id": "C21", "title": "Hash from array and as_array", "statement": "Hash::from(array) yields a hash whose as_bytes and as_array are that array; as_array panics in debug builds iff the hash is shorter than OUTBYTES, and otherwise its prefix is as_bytes.", "quantifier": "every array and every hash length", "why_tests_cant": "Universal over 2^512 arrays.", "anchors": ["blake2b/src/lib.rs: Hash::from", "blake2b/src/lib.rs: Hash::as_array", "blake2s/src/lib.rs: Hash::from", "blake2s/src/lib.rs: Hash::as_array"]}
{"id": "C22", "title": "No panic, no undefined behaviour, termination", "statement": "Every safe API call with in-range builder arguments terminates without panicking (in debug builds as well), without reading outside the input slices in the unsafe SIMD code, and without integer overflow; the exceptions are exactly those documented (C07 at counter wrap-around, C12, C21).", "quantifier": "every API history, every input length, every platform", "why_tests_cant": "Out-of-bounds reads and overflow at extreme lengths cannot be excluded by sampling.", "anchors": ["blake2b/src/portable.rs: compress1_loop", "blake2s/src/portable.rs: compress1_loop", "blake2b/src/avx2.rs: compress1_loop, compress4_loop", "blake2b/src/sse41.rs: compress2_loop", "blake2s/src/sse41.rs: compress1_loop, compress4_loop", "blake2s/src/avx2.rs: compress8_loop", "blake2b/src/many.rs: compress_many", "blake2s/src/many.rs: compress_many"]}
{"id": "C23", "title": "Batch scheduling always makes progress", "statement": "update_many, hash_many and the parallel tree hashers terminate: every SIMD pass finishes at least one queued job, every job is compressed exactly once to completion, none is dropped or run twice, and the fixed-capacity work queue never overflows.", "quantifier": "every collection of jobs with any mixture of lengths, every platform", "why_tests_cant": "Termination and exactly-once are properties over all schedules.", "anchors": ["blake2b/src/many.rs: compress_many", "blake2b/src/many.rs: fill_jobs_vec", "blake2b/src/many.rs: evict_finished", "blake2s/src/many.rs: compress_many", "blake2s/src/many.rs: fill_jobs_vec", "blake2s/src/many.rs: evict_finished"]}
{"id": "C24", "title": "io::Write for State", "statement": "write(buf) consumes the whole buffer, returns Ok(len), has exactly the effect of update(buf); flush changes nothing; hence io::copy/write_all of any chunking into a State hashes the concatenation.", "quantifier": "every sequence of write and flush calls", "why_tests_cant": "All chunkings.", "anchors": ["blake2b/src/lib.rs: io::Write for State", "blake2s/src/lib.rs: io::Write for State", "blake2b/src/blake2bp.rs: io::Write for State", "blake2s/src/blake2sp.rs: io::Write for State"]}
{"id": "C25", "title": "The command line tool hashes exactly the bytes of its input", "statement": "For any sequence of read results (short reads of any size, Interrupted errors at any point) ending in end-of-file, the blake2 tool prints the hex hash of exactly the concatenation of the bytes read; a non-Interrupted error is reported and no hash is printed.", "quantifier": "every finite script of reader results, every algorithm", "why_tests_cant": "All read schedules and fault points.", "anchors": ["blake2_bin/src/main.rs: read_write_all, hash_file, hash_stdin"]}
{"id": "C26", "title": "Command line flags map to parameters", "statement": "Each command line option sets exactly its parameter; -b with -s is rejected; tree/salt options with -p are rejected; options out of range never yield a hash; without options the result is plain BLAKE2b.", "quantifier": "every combination of options and option values", "why_tests_cant": "Product of all option values.", "anchors": ["blake2_bin/src/main.rs: make_params"]}
{"id": "C27", "title": "Command line exit status and output lines", "statement": "The tool exits 0 iff parameters are valid and every input was hashed; it attempts every input in order even after a failure, prints one line per successful input and one error per failing input, and names the path iff there is more than one input.", "quantifier": "every list of inputs with any pattern of failures", "why_tests_cant": "All patterns of failures.", "anchors": ["blake2_bin/src/main.rs: main, hash_file, hash_stdin"]}
{"id": "C28", "title": "The byte counter carries correctly in SIMD lanes", "statement": "When many hashes are processed in lanes, each lane's 2w-bit byte counter advances exactly as the scalar counter, including the carry from the low to the high word and wrap-around, for any mixture of counters and block lengths that can occur.", "quantifier": "every reachable counter value in every lane", "why_tests_cant": "Carries happen after 2^64 (or 2^32) bytes only.", "anchors": ["blake2b/src/avx2.rs: add_to_counts, load_counts, store_counts", "blake2b/src/sse41.rs: add_to_counts", "blake2s/src/avx2.rs: add_to_counts", "blake2s/src/sse41.rs: add_to_counts"]}
{"id": "C29", "title": "Empty updates are no-ops", "statement": "update(&[]) and pairing a state with an empty input in update_many leave a state unchanged.", "quantifier": "every state in every history", "why_tests_cant": "All histories, e.g. exactly full buffer.", "anchors": ["blake2b/src/lib.rs: State::update", "blake2s/src/lib.rs: State::update", "blake2b/src/many.rs: update_many", "blake2s/src/many.rs: update_many"]}
{"id": "C30", "title": "Debug output leaks no secrets", "statement": "The Debug text of Params, State, HashManyJob and the bp/sp counterparts depends only on public metadata (lengths, count, flags, salt, personalisation, tree parameters): two values that differ only in key bytes, state words or buffered input print identically.", "quantifier": "every pair of values that agree on the public metadata", "why_tests_cant": "Non-interference is a property of pairs of all values.", "anchors": ["blake2b/src/lib.rs: Debug for Params", "blake2b/src/lib.rs: Debug for State", "blake2s/src/lib.rs: Debug for Params", "blake2s/src/lib.rs: Debug for State", "blake2b/src/many.rs: Debug for HashManyJob", "blake2s/src/many.rs: Debug for HashManyJob", "blake2b/src/guts.rs: Debug for Job", "blake2s/src/guts.rs: Debug for Job", "blake2b/src/blake2bp.rs: Debug", "blake2s/src/blake2sp.rs: Debug"]}
{"id": "C31", "title": "Platform detection and degree", "statement": "detect() selects AVX2 if available, else SSE4.1 if available, else portable, never an unavailable instruction set; degree() never exceeds MAX_DEGREE and is the lane count of the selected implementation.", "quantifier": "every combination of target architecture, build-time features, std feature and CPU features", "why_tests_cant": "CI machines expose one combination.", "anchors": ["blake2b/src/guts.rs: Implementation::detect", "blake2b/src/guts.rs: Implementation::sse41_if_supported", "blake2b/src/guts.rs: Implementation::avx2_if_supported", "blake2b/src/guts.rs: Implementation::degree", "blake2b/src/guts.rs: MAX_DEGREE", "blake2s/src/guts.rs: Implementation::detect", "blake2s/src/guts.rs: Implementation::sse41_if_supported", "blake2s/src/guts.rs: Implementation::avx2_if_supported", "blake2s/src/guts.rs: Implementation::degree", "blake2s/src/guts.rs: MAX_DEGREE", "blake2b/src/many.rs: degree", "blake2b/src/many.rs: MAX_DEGREE", "blake2s/src/many.rs: degree", "blake2s/src/many.rs: MAX_DEGREE"]}
{"id": "C32", "title": "Batch order is irrelevant", "statement": "Permuting the collection given to update_many or hash_many, or splitting it into several calls, changes no individual result.", "quantifier": "every permutation/partition of every collection", "why_tests_cant": "Factorially many orders.", "anchors": ["blake2b/src/many.rs: update_many", "blake2b/src/many.rs: hash_many", "blake2s/src/many.rs: update_many", "blake2s/src/many.rs: hash_many"]}
{"id": "C33", "title": "Arbitrary mixed histories refine a list of bytes", "statement": "Over any history mixing update, update_many, finalize, set_last_node, count, write, flush and clone on any population of States built with any parameters, each State behaves as the abstract pair (parameters, list of bytes fed): every finalize and count equals the specification of that abstract value.", "quantifier": "every finite history over every population of states", "why_tests_cant": "All interleavings of all operations.", "anchors": ["blake2b/src/lib.rs: State", "blake2s/src/lib.rs: State", "blake2b/src/many.rs: update_many", "blake2s/src/many.rs: update_many"]}
{"id": "C34", "title": "Clones are independent", "statement": "A cloned State/Params evolves independently: operations on the original do not affect the clone and vice versa, and both continue from the same history.", "quantifier": "every history before and after cloning", "why_tests_cant": "All histories.", "anchors": ["blake2b/src/lib.rs: State", "blake2b/src/lib.rs: Params", "blake2s/src/lib.rs: State", "blake2s/src/lib.rs: Params"]}
{"id": "C35", "title": "Forcing the portable implementation changes nothing", "statement": "benchmarks::force_portable(_blake2bp/sp) on a Params changes no hash result.", "quantifier": "every params and input", "why_tests_cant": "All inputs.", "anchors": ["blake2b/src/lib.rs: benchmarks::force_portable", "blake2s/src/lib.rs: benchmarks::force_portable", "blake2b/src/blake2bp.rs: force_portable", "blake2s/src/blake2sp.rs: force_portable"]}
{"id": "C36", "title": "Constants are the specified ones", "statement": "The initialisation vector consists of the first 64 (32) bits of the fractional parts of the square roots of the first eight primes, every message schedule row used is a permutation of the sixteen message words, BLAKE2b rounds 10 and 11 reuse rows 0 and 1.", "quantifier": "the complete constant tables, and every word/round index", "why_tests_cant": "A mistyped constant is caught by vectors only probabilistically; here it is derived from the definition.", "anchors": ["blake2b/src/lib.rs: IV", "blake2b/src/lib.rs: SIGMA", "blake2s/src/lib.rs: IV", "blake2s/src/lib.rs: SIGMA"]}
{"id": "C37", "title": "Compression is lane-local", "statement": "In the SIMD many-input code, the result for one lane depends only on that lane's chaining value, counter, flags and message block: other inputs in the batch cannot influence it.", "quantifier": "every content of the other lanes", "why_tests_cant": "Non-interference over all contents of all lanes.", "anchors": ["blake2b/src/avx2.rs: round, compress4_transposed, transpose_vecs", "blake2b/src/sse41.rs: round, compress2_transposed", "blake2s/src/sse41.rs: round, compress4_transposed", "blake2s/src/avx2.rs: round, compress8_transposed"]}
{"id": "C38", "title": "The chaining step is invertible in the message schedule", "statement": "Each round of the compression function is a bijection on the sixteen-word internal state for any message, so no entropy is lost inside the permutation; the rounds of the SIMD loops that hash several inputs at once are bijections on their sixteen vector registers too.", "quantifier": "every state and every message", "why_tests_cant": "Bijectivity over 2^1024 states.", "anchors": ["blake2b/src/portable.rs: g", "blake2b/src/portable.rs: round", "blake2s/src/portable.rs: g", "blake2s/src/portable.rs: round", "blake2b/src/avx2.rs: round", "blake2b/src/sse41.rs: round", "blake2s/src/avx2.rs: round", "blake2s/src/sse41.rs: round"]}
{"id": "C39", "title": "The parallel leaves partition the input", "statement": "In blake2bp/sp every input byte is hashed by exactly one leaf and in order: from the leaf messages the input can be reconstructed, so distinct inputs (of any lengths) give distinct leaf message tuples.", "quantifier": "every pair of inputs", "why_tests_cant": "Injectivity over all inputs.", "anchors": ["blake2b/src/blake2bp.rs: Params::hash, State::finalize, State::compress_to_leaves", "blake2s/src/blake2sp.rs: Params::hash, State::finalize, State::compress_to_leaves"]}
{"id": "C40", "title": "Message framing is injective", "statement": "For fixed parameters, distinct inputs are presented to the compression function as distinct sequences of (block, counter, final flag), also between keyed and unkeyed use: padding never makes two inputs collide trivially.", "quantifier": "every pair of inputs and keys", "why_tests_cant": "Injectivity over all inputs.", "anchors": ["blake2b/src/portable.rs: compress1_loop", "blake2s/src/portable.rs: compress1_loop", "blake2b/src/guts.rs: final_block", "blake2s/src/guts.rs: final_block"]}
{"id": "C41", "title": "Constant-time comparison", "statement": "Comparing two hashes, or a hash with bytes, takes the same branches and reads the same positions, every position of equally long values exactly once and in order, wherever the values differ: what it does depends only on the two lengths.", "quantifier": "every pair of equal-length values", "why_tests_cant": "Timing cannot be settled by value tests.", "anchors": ["blake2b/src/lib.rs: PartialEq for Hash", "blake2s/src/lib.rs: PartialEq for Hash"]}
{"id": "C42", "title": "Byte count at the limits of the counter", "statement": "For every total, also beyond the range of the counter, count() is the number of bytes fed modulo the counter range; the only exception is a keyed state in a build with overflow checks, where count() panics exactly when key block plus input wrap to less than one block.", "quantifier": "every parameter set, every sequence of updates of any total length", "why_tests_cant": "Totals near 2^64 or 2^128 bytes cannot be fed in a test.", "anchors": ["blake2b/src/lib.rs: State::count", "blake2s/src/lib.rs: State::count"]}
{"id": "C43", "title": "A collision of hashes is a collision of the compression function", "statement": "If two calls of Params::hash, with any parameters and inputs, return the same digest, then either the (zero padded) parameters and the inputs are the same, or among the calls of the compression function made by the two computations there are two that collide: padding, keying, counting and parameters introduce no collisions of their own.", "quantifier": "every pair of parameter sets and of inputs below the counter limit", "why_tests_cant": "A statement about all pairs of inputs; no test can enumerate them.", "anchors": ["blake2b/src/lib.rs: Params::hash", "blake2b/src/lib.rs: Params::to_words", "blake2s/src/lib.rs: Params::hash", "blake2s/src/lib.rs: Params::to_words", "blake2b/src/guts.rs: final_block", "blake2s/src/guts.rs: final_block"]}
{"id": "C44", "title": "A collision of tree hashes is a collision of the compression function", "statement": "The same for blake2bp and blake2sp: two equal digests with different key, digest length or input yield two colliding compression calls, at the same leaf of the two computations or at their roots. And between the modes: a sequential hash and a tree hash have the same digest only if the sequential parameters are exactly those of the root node and its input is the concatenated leaf digests, or else some two calls collide; without tree parameters (node depth, fanout, ...) it is always a collision.", "quantifier": "every pair of parameter sets and of inputs below the counter limit", "why_tests_cant": "A statement about all pairs of inputs; no test can enumerate them.", "anchors": ["blake2b/src/blake2bp.rs: Params::hash", "blake2s/src/blake2sp.rs: Params::hash"]}
{"id": "C45", "title": "No length extension", "statement": "Each hash is the output of a call of the compression function with the final flag set, which is the last one; all earlier calls have it clear. So the calls made for one input are never a proper prefix of those made for another, and a digest is never an intermediate state of a longer hash.", "quantifier": "every pair of inputs, every parameter set", "why_tests_cant": "Quantifies over all pairs of inputs.", "anchors": ["blake2b/src/lib.rs: State::finalize", "blake2b/src/lib.rs: Params::hash", "blake2s/src/lib.rs: State::finalize", "blake2s/src/lib.rs: Params::hash", "blake2b/src/portable.rs: compress1_loop", "blake2s/src/portable.rs: compress1_loop"]}
{"id": "C46", "title": "Whole-API programs", "statement": "A program that makes, changes, clones and reuses any number of values of all public types (Params, State, HashManyJob, Hash and the tree versions) in any order is told exactly what the documentation says of each call: states and jobs are snapshots of the parameters they were made from, values do not influence each other, Debug prints the documented fields, comparison is comparison of digests; a call panics exactly in the documented cases, and a release build answers a to_hash that came too early with the value C70 describes. The answers do not depend on the platform, nor, for a program that does not panic in a debug build, on the build.", "quantifier": "every program: every finite sequence of API calls with any arguments, on any number of values, every platform, debug and release builds", "why_tests_cant": "Programs are unbounded sequences over unbounded values; interactions between types are not covered by per-function tests.", "anchors": ["blake2b/src/lib.rs: Params", "blake2b/src/lib.rs: State", "blake2b/src/lib.rs: Hash", "blake2s/src/lib.rs: Params", "blake2s/src/lib.rs: State", "blake2s/src/lib.rs: Hash", "blake2b/src/many.rs: HashManyJob", "blake2b/src/many.rs: hash_many", "blake2b/src/many.rs: update_many", "blake2s/src/many.rs: HashManyJob", "blake2s/src/many.rs: hash_many", "blake2s/src/many.rs: update_many", "blake2b/src/blake2bp.rs: Params, State", "blake2s/src/blake2sp.rs: Params, State"]}
{"id": "C47", "title": "A panicking iterator does bounded damage in the batch calls", "statement": "If the iterator given to update_many (hash_many), or the as_ref of an input, panics and the caller catches the panic, then fewer than degree() of the states (jobs) already yielded are torn; every other one already yielded is exactly as update (hash_many) on it alone would leave it, and the ones not yielded are untouched. Torn states keep the right count() and never fault afterwards, but their digest is neither the old nor the new one; torn jobs count as finished, so to_hash answers with wrong bytes even in debug builds and after another hash_many. On the portable implementation there are none.", "quantifier": "every list of states (jobs) in any reachable condition, every point at which the iterator panics, every platform, both algorithms", "why_tests_cant": "Depends on where the panic falls relative to the scheduler's batches: every crash point of every mix of lengths.", "anchors": ["blake2b/src/many.rs: update_many", "blake2b/src/many.rs: hash_many", "blake2b/src/many.rs: compress_many", "blake2b/src/many.rs: fill_jobs_vec", "blake2b/src/many.rs: HashManyJob::to_hash", "blake2s/src/many.rs: update_many", "blake2s/src/many.rs: hash_many", "blake2s/src/many.rs: compress_many", "blake2s/src/many.rs: fill_jobs_vec", "blake2s/src/many.rs: HashManyJob::to_hash"]}
{"id": "C48", "title": "Exactly the prescribed compressions are run, once each and in order", "statement": "For every one-shot hash, for every history of operations on any number of hashers, and for every hash_many session, the compression function is run, for each message, on exactly the blocks RFC 7693 prescribes, in order, each once, with the right byte counter, final flag and last-node flag. An operation runs only what is due at that point: nothing is computed twice, nothing ahead of time, finalize runs exactly one call and repeats it if called again, and a SIMD pass never holds the same message twice nor an idle lane. In numbers: a one-shot hash compresses once per block of the message, once more for a key, and once for an empty message without key. The same holds for BLAKE2bp and BLAKE2sp, node by node: each leaf is compressed on its own share of the message and the root on the outputs of the leaves; there an update may leave at most two calls of each leaf to finalize.", "quantifier": "every parameter choice and input; every history of create, clone, update, update_many, flush, set_last_node and finalize on any number of hashers; every list of hash_many requests; every history of tree states; every platform, all four algorithms", "why_tests_cant": "The order and interleaving of compressions depends on how bytes are split over calls and on the lengths of all the messages in a batch; tests see only digests.", "anchors": ["blake2b/src/lib.rs: State::update", "blake2b/src/lib.rs: State::finalize", "blake2b/src/lib.rs: Params::hash", "blake2s/src/lib.rs: State::update", "blake2s/src/lib.rs: State::finalize", "blake2s/src/lib.rs: Params::hash", "blake2b/src/many.rs: hash_many", "blake2b/src/many.rs: update_many", "blake2b/src/many.rs: compress_many", "blake2b/src/many.rs: HashManyJob::new", "blake2s/src/many.rs: hash_many", "blake2s/src/many.rs: update_many", "blake2s/src/many.rs: compress_many", "blake2s/src/many.rs: HashManyJob::new", "blake2b/src/guts.rs: compress1_loop", "blake2b/src/guts.rs: compress2_loop", "blake2b/src/guts.rs: compress4_loop", "blake2s/src/guts.rs: compress1_loop", "blake2s/src/guts.rs: compress2_loop", "blake2s/src/guts.rs: compress4_loop"]}
{"id": "C49", "title": "The work done does not depend on the contents of keys and messages", "statement": "The sequence of compression passes, with the number of lanes of each, the messages in the lanes and their counters and flags, is determined by the lengths of keys and inputs, the last-node flags and the platforms. Two runs that differ only in the contents of keys, inputs, salts, personalizations and other parameters run the same sequence. This is a statement about which calls are made, not about machine timing.", "quantifier": "every pair of one-shot calls, histories and hash_many sessions, serial or tree, that agree on lengths, flags and platforms", "why_tests_cant": "It compares two runs for every pair of inputs.", "anchors": ["blake2b/src/lib.rs: State::update", "blake2b/src/lib.rs: State::finalize", "blake2b/src/lib.rs: Params::hash", "blake2s/src/lib.rs: State::update", "blake2s/src/lib.rs: State::finalize", "blake2s/src/lib.rs: Params::hash", "blake2b/src/many.rs: hash_many", "blake2b/src/many.rs: update_many", "blake2b/src/many.rs: compress_many", "blake2s/src/many.rs: hash_many", "blake2s/src/many.rs: update_many", "blake2s/src/many.rs: compress_many", "blake2b/src/guts.rs: compress1_loop", "blake2s/src/guts.rs: compress1_loop"]}
{"id": "C50", "title": "hash_many, update_many and the tree variants keep the SIMD lanes busy", "statement": "On AVX2 all but fewer than 4 (BLAKE2b) or 8 (BLAKE2s) of the jobs given to hash_many are hashed in passes with all lanes in use, whatever the number of jobs and their lengths, so a session makes at most one fourth (eighth; with SSE4.1 one half and one fourth) as many passes as it has compressions, plus one per keyed job, plus a term that does not grow with the number of jobs; on any SIMD platform all but fewer than 2 or 4 never occupy a pass alone. No pass is wider than the platform supports; on the portable implementation all passes have width one. The same holds for update_many, except for the one pass in which a state with a partly filled buffer has that buffer compressed (so a batch makes at most one pass more per state). Every pass of an update of a BLAKE2bp or BLAKE2sp state has exactly the width the platform supports, and when a tree hash is computed in one call with AVX2 every leaf takes part in at most one pass that does not fill all lanes, so it makes at most one pass per 512 bytes of input, and 20 (40) more.", "quantifier": "every list of jobs of any lengths, every list of reachable states and inputs, every reachable tree state and input, every platform, both algorithms", "why_tests_cant": "Depends on the mix of lengths; digests are the same whether lanes are used or not.", "anchors": ["blake2b/src/many.rs: hash_many", "blake2b/src/many.rs: compress_many", "blake2b/src/many.rs: fill_jobs_vec", "blake2b/src/many.rs: evict_finished", "blake2b/src/many.rs: degree", "blake2s/src/many.rs: hash_many", "blake2s/src/many.rs: compress_many", "blake2s/src/many.rs: fill_jobs_vec", "blake2s/src/many.rs: evict_finished", "blake2s/src/many.rs: degree", "blake2b/src/blake2bp.rs: State::update", "blake2s/src/blake2sp.rs: State::update"]}
{"id": "C51", "title": "A rejected builder call leaves the Params as it was", "statement": "A builder call with an argument out of range panics before it has changed anything. A client who catches such panics and goes on using the Params has exactly the Params that the accepted calls alone would have built; no call is half done.", "quantifier": "every sequence of builder calls, in and out of range in any mixture, every Params, serial and tree, both algorithms", "why_tests_cant": "Every history of accepted and rejected calls; tests check that a panic occurs, not what it leaves.", "anchors": ["blake2b/src/lib.rs: Params::hash_length", "blake2b/src/lib.rs: Params::key", "blake2b/src/lib.rs: Params::salt", "blake2b/src/lib.rs: Params::personal", "blake2b/src/lib.rs: Params::inner_hash_length", "blake2s/src/lib.rs: Params::hash_length", "blake2s/src/lib.rs: Params::key", "blake2s/src/lib.rs: Params::salt", "blake2s/src/lib.rs: Params::personal", "blake2s/src/lib.rs: Params::inner_hash_length", "blake2s/src/lib.rs: Params::node_offset", "blake2b/src/blake2bp.rs: Params::hash_length, Params::key", "blake2s/src/blake2sp.rs: Params::hash_length, Params::key"]}
{"id": "C52", "title": "The tree hash can be put together from the sequential API", "statement": "blake2bp (blake2sp) of an input is what a client gets who deals the blocks of the input to four (eight) sequential hashers made with fanout, max_depth, node_offset and inner_hash_length, sets the last-node flag of the last one, and hashes the concatenation of their digests with a root hasher made with node_depth and last_node. This is the reference implementation in the tests of the crates, which compare it on 63 lengths.", "quantifier": "every input of any length, every pair of platforms, both algorithms", "why_tests_cant": "The buffering of the tree variants has many cases in the length; the tests try 63 lengths.", "anchors": ["blake2b/src/blake2bp.rs: blake2bp, blake2bp_reference", "blake2s/src/blake2sp.rs: blake2sp, blake2sp_reference", "blake2b/src/lib.rs: Params", "blake2b/src/lib.rs: State", "blake2s/src/lib.rs: Params", "blake2s/src/lib.rs: State"]}
{"id": "C53", "title": "BLAKE2X can be built on Params", "statement": "A client who puts the output length into the upper half of the node offset, hashes the input, and hashes the result again with fanout and depth zero and node offsets 0, 1, 2, ... until there is enough output, as the tests do, gets exactly the BLAKE2Xb (BLAKE2Xs) output the BLAKE2X document defines; no call panics.", "quantifier": "every input, every key that fits, every output length the parameter block can hold (below 2^32 or 2^16), every platform, both algorithms", "why_tests_cant": "The test vectors have one input of 256 bytes, one key and 256 output lengths.", "anchors": ["tests/vector_tests.rs: blake2x_test, blake2xb_vectors, blake2xs_vectors", "blake2b/src/lib.rs: Params", "blake2s/src/lib.rs: Params"]}
{"id": "C54", "title": "The fuzz targets and randomised tests pass on every input", "statement": "No run of the fuzz targets of the crates can find a panic; the tests that compare hash_many and update_many with one-by-one hashing on random parameters and inputs, and the test that compares the incremental tree hash with the reference implementation on a table of lengths, pass for all parameters, inputs, lengths and numbers of inputs, and as they stand with any random generator. The unit tests that compare the one-input and the multi-input compression loops with the portable code run one block at a time pass for every input, length, stride, flags and counter, and as they stand on every machine.", "quantifier": "all fuzzer data; all lists of parameters and inputs; all inputs; all cases of the loop tests; debug and release builds, every platform, both algorithms", "why_tests_cant": "A fuzzer or a seeded generator draws a sample.", "anchors": ["blake2b/fuzz/fuzz_targets: fuzz_blake2b, fuzz_blake2bp, fuzz_updates", "blake2s/fuzz/fuzz_targets: fuzz_blake2s, fuzz_blake2sp, fuzz_updates", "tests/fuzz_many.rs: fuzz_blake2b_hash_many, fuzz_blake2b_update_many, fuzz_blake2s_hash_many, fuzz_blake2s_update_many", "blake2b/src/blake2bp.rs: test_against_reference", "blake2s/src/blake2sp.rs: test_against_reference", "blake2b/src/guts.rs: test_detection, exercise_cases, reference_compression, exercise_compress1_loop, exercise_compress2_loop, exercise_compress4_loop", "blake2s/src/guts.rs: test_detection, exercise_cases, reference_compression, exercise_compress1_loop, exercise_compress4_loop, exercise_compress8_loop"]}
{"id": "C55", "title": "Killed, or with its output closed, the command line tool has printed a prefix of the right output", "statement": "At whatever point the process is killed, an input hangs, or a line cannot be written: the lines delivered are the right ones from the first on without a gap, and no input is opened before the line for the previous one has been delivered. If a line is refused the exit status is 101. Status 0 means that every input was read to its end without error and all digests were delivered. The tool waits forever only for an input that has no end.", "quantifier": "every command line, every behaviour of the operating system and of the output streams, every point at which the process is stopped", "why_tests_cant": "Quantifies over crash points and failures of the environment.", "anchors": ["blake2_bin/src/main.rs: main, hash_file, hash_stdin, read_write_all, mmap_file"]}
{"id": "C56", "title": "Threads do not interfere", "statement": "When threads share values by reference and each has further values of its own, no interleaving of their calls changes a shared value, and each thread is told, holds and panics exactly as if it ran alone; so the outcome does not depend on the schedule and is the documented one for each thread.", "quantifier": "any number of threads, any programs over the whole public API, every schedule", "why_tests_cant": "Schedules cannot be enumerated; a test sees one.", "anchors": ["blake2b/src/lib.rs: Params", "blake2b/src/lib.rs: State", "blake2b/src/lib.rs: Hash", "blake2s/src/lib.rs: Params", "blake2s/src/lib.rs: State", "blake2s/src/lib.rs: Hash", "blake2b/src/many.rs: HashManyJob", "blake2b/src/many.rs: hash_many", "blake2b/src/many.rs: update_many", "blake2s/src/many.rs: HashManyJob", "blake2s/src/many.rs: hash_many", "blake2s/src/many.rs: update_many", "blake2b/src/blake2bp.rs: Params, State", "blake2s/src/blake2sp.rs: Params, State"]}
{"id": "C57", "title": "The vector tests accept exactly the right vectors", "statement": "Whatever is in the file of test vectors, each of the six tests that read it passes exactly when every vector it selects is right (input and key are hexadecimal, the key is not too long, and the expected text is the lowercase hexadecimal of what the published function gives) and there are 512 of them; otherwise it panics. The verdict is the same on every platform and in every build. With the file in the repository, whose 3072 vectors are all right, the six tests pass.", "quantifier": "all files of vectors, every platform, debug and release builds, BLAKE2b, BLAKE2s, BLAKE2bp, BLAKE2sp, BLAKE2Xb and BLAKE2Xs", "why_tests_cant": "A test run is one file on one machine; it cannot show that a wrong vector would be noticed.", "anchors": ["tests/vector_tests.rs: blake2b_vectors, blake2bp_vectors, blake2s_vectors, blake2sp_vectors, blake2x_test, blake2xb_vectors, blake2xs_vectors", "tests/blake2-kat.json"]}
{"id": "C58", "title": "Secrets do not reach branches or addresses", "statement": "The branches taken and the positions accessed while building parameters, hashing in any way (incremental, one-shot, batches, trees) and checking a tag depend only on which calls are made on which values, the lengths of the byte strings, the output length, the last-node flag and the platform; not on the contents of keys, salts, personalizations, messages or tags, nor on whether a tag is right. The same holds of any program over the whole API that prints (to_hex, Debug) only what is the same in both runs. The exception is to_hex, whose table lookups determine the digest.", "quantifier": "every pair of histories or whole-API programs that differ only in contents, valid or not, both algorithms, sequential and tree, every platform, debug and release builds", "why_tests_cant": "A statement about all pairs of runs; a test compares two runs and sees no addresses.", "anchors": ["blake2b/src/lib.rs: Params", "blake2b/src/lib.rs: State", "blake2b/src/lib.rs: Hash", "blake2b/src/lib.rs: bytes_to_hex", "blake2s/src/lib.rs: Params", "blake2s/src/lib.rs: State", "blake2s/src/lib.rs: Hash", "blake2s/src/lib.rs: bytes_to_hex", "blake2b/src/guts.rs: compress1_loop", "blake2b/src/guts.rs: final_block", "blake2s/src/guts.rs: compress1_loop", "blake2s/src/guts.rs: final_block", "blake2b/src/portable.rs: compress_block", "blake2s/src/portable.rs: compress_block", "blake2b/src/many.rs: compress_many", "blake2b/src/many.rs: hash_many", "blake2b/src/many.rs: update_many", "blake2s/src/many.rs: compress_many", "blake2s/src/many.rs: hash_many", "blake2s/src/many.rs: update_many", "blake2b/src/blake2bp.rs: Params, State", "blake2s/src/blake2sp.rs: Params, State"]}
{"id": "C59", "title": "Batches stop at the first None of the iterator", "statement": "Whatever the iterator given to update_many or hash_many does when it is asked again after returning None: the elements it handed out before its first None are processed, each as if alone; no other state or job changes; and the iterator is not asked again, so it is left in the state in which that first None put it.", "quantifier": "every iterator that returns None at some point, any number of elements of any lengths, every platform, both algorithms", "why_tests_cant": "Iterators may resume after None in any way; tests use slices and vectors, which never do.", "anchors": ["blake2b/src/many.rs: compress_many", "blake2b/src/many.rs: fill_jobs_vec", "blake2b/src/many.rs: hash_many", "blake2b/src/many.rs: update_many", "blake2s/src/many.rs: compress_many", "blake2s/src/many.rs: fill_jobs_vec", "blake2s/src/many.rs: hash_many", "blake2s/src/many.rs: update_many"]}
{"id": "C60", "title": "The work of one run is never the beginning of that of another", "statement": "C45 for the code as it runs, with its buffering, batches and tree scheduling. The compressions run to hash a message are never the beginning of those run to hash another message, or the same message with another key of the same length: neither with the sequential nor with the tree functions. In any history, the compressions flagged as final are exactly those run by finalize, so a value a digest reveals is never one from which hashing goes on.", "quantifier": "all pairs of messages, keys and settings, all histories, every platform, both algorithms, sequential and tree", "why_tests_cant": "A statement about all pairs of messages; tests compare digests of a few.", "anchors": ["blake2b/src/lib.rs: Params::hash", "blake2b/src/lib.rs: State::update", "blake2b/src/lib.rs: State::finalize", "blake2s/src/lib.rs: Params::hash", "blake2s/src/lib.rs: State::update", "blake2s/src/lib.rs: State::finalize", "blake2b/src/guts.rs: Finalize", "blake2b/src/guts.rs: final_block", "blake2s/src/guts.rs: Finalize", "blake2s/src/guts.rs: final_block", "blake2b/src/many.rs: update_many", "blake2s/src/many.rs: update_many", "blake2b/src/blake2bp.rs: Params::hash, State", "blake2s/src/blake2sp.rs: Params::hash, State"]}
{"id": "C61", "title": "No instruction the processor does not have", "statement": "A program that uses the library in any way enters a function compiled for SSE4.1 or AVX2 only on a processor that has it; a program all of whose hashers were made with force_portable enters none.", "quantifier": "every machine (architecture, build-time features, std or not, processor features) whose processor has what the build assumes and has SSE4.1 if it has AVX2; all histories and all programs over the whole API, also those that panic, batches that mix forced and detected hashers, both algorithms, sequential and tree", "why_tests_cant": "Entering such a function without the feature is undefined behaviour that shows on particular machines only; CI has one kind of machine.", "anchors": ["blake2b/src/guts.rs: Implementation::detect", "blake2b/src/guts.rs: Implementation::compress1_loop", "blake2s/src/guts.rs: Implementation::detect", "blake2s/src/guts.rs: Implementation::compress1_loop", "blake2b/src/many.rs: compress_many", "blake2b/src/many.rs: update_many", "blake2b/src/many.rs: hash_many", "blake2s/src/many.rs: compress_many", "blake2s/src/many.rs: update_many", "blake2s/src/many.rs: hash_many", "blake2b/src/avx2.rs: compress1_loop, compress4_loop", "blake2b/src/sse41.rs: compress2_loop", "blake2s/src/avx2.rs: compress8_loop", "blake2s/src/sse41.rs: compress1_loop, compress4_loop"]}
{"id": "C62", "title": "Every unchecked read stays inside the bytes given", "statement": "The vector code walks through the input with raw pointers and unchecked 16- and 32-byte loads. No pointer step and no load ever leaves the slice or block it started from, even in release builds, which have no assertions, and even for input lengths that no caller passes; and the loops with each of these reads checked return the same results as the loops the other properties are about.", "quantifier": "all inputs of all lengths (batches of inputs of different lengths, empty ones included), all chaining values, counters and flags, both strides, all platforms, debug and release builds", "why_tests_cant": "A read a few bytes past the end of a slice usually succeeds and changes nothing; tests see it only at a page boundary or under a sanitizer.", "anchors": ["blake2b/src/avx2.rs: transpose_msg_vecs, compress1_loop, compress4_loop", "blake2b/src/sse41.rs: transpose_msg_vecs, compress2_loop", "blake2s/src/avx2.rs: transpose_msg_vecs, compress8_loop", "blake2s/src/sse41.rs: compress_block, transpose_msg_vecs, compress1_loop, compress4_loop", "blake2b/src/guts.rs: final_block", "blake2b/src/guts.rs: input_debug_asserts", "blake2s/src/guts.rs: final_block", "blake2s/src/guts.rs: input_debug_asserts"]}
{"id": "C63", "title": "The unit tests pass exactly when the values they expect are right, and they pass", "statement": "Each test of test.rs, generalised to any inputs, builder calls and expected outputs, passes if the expected outputs are the ones of RFC 7693 (the arguments in range) and otherwise panics; test_hash_many and test_update_many pass for any number of inputs; a test of the command line tool passes exactly if the expected line is the digest of the bytes it is given. With the values written in the tests they all pass, on every machine and in every build, however the bytes reach the tool.", "quantifier": "all tables of inputs and expected outputs, all sequences of builder calls, all numbers of inputs that fit the buffer painter, all platforms, debug and release builds, all ways in which input can arrive", "why_tests_cant": "A test run says something about the values in the test, on one machine and one build; it does not say that other values would have been told apart.", "anchors": ["blake2b/src/test.rs: test_update_state", "blake2b/src/test.rs: test_multiple_finalizes", "blake2b/src/test.rs: test_write", "blake2b/src/test.rs: test_all_parameters", "blake2b/src/test.rs: test_hash_from", "blake2s/src/test.rs: test_update_state", "blake2s/src/test.rs: test_multiple_finalizes", "blake2s/src/test.rs: test_write", "blake2s/src/test.rs: test_all_parameters", "blake2s/src/test.rs: test_hash_from", "blake2b/src/many.rs: test_hash_many", "blake2b/src/many.rs: test_update_many", "blake2s/src/many.rs: test_hash_many", "blake2s/src/many.rs: test_update_many", "blake2_bin/tests/test.rs: test_stdin, test_input_file, test_input_file_mmap, test_blake2bp, test_last_node_flag, test_all_parameters_blake2b"]}
{"id": "C64", "title": "The benchmarks run to the end and hash what they are credited for", "statement": "However memory is allocated and whatever the random generator gives: no benchmark of this library panics; each timed run computes the published function of exactly the number of bytes the rate is computed from; the one-input benchmarks of bench_multiprocess time every offset modulo 512 exactly once, and those of bench.rs go through every offset in a page before repeating one. A defect: the comment on the hash_many benchmarks of bench_multiprocess promises inputs at uncorrelated offsets, but in each run all inputs are at the same offset modulo 512, since a shuffled list is dropped and an unshuffled one used.", "quantifier": "all addresses and contents of the buffers, all shuffles, all page sizes, any number of runs, all machines, both algorithms", "why_tests_cant": "What a benchmark measures shows in no test result; the offsets depend on the allocator.", "anchors": ["benches/bench_multiprocess/src/main.rs: bench, blake2b_hash, blake2s_hash, blake2b_hash_many, blake2s_hash_many, hash_blake2bp, hash_blake2sp, VecIter, OffsetInput", "benches/bench.rs: RandomInput, bench_long_blake2b_avx2, bench_long_blake2b_many_4x, bench_long_blake2s_many_8x"]}
{"id": "C65", "title": "The command line means what the help text says", "statement": "Every option of the blake2 tool sets its own parameter and nothing else: the words of the command line, in any order, with letters in one word or several, values joined by = or in the next word, and paths anywhere or after --, are understood as exactly the options they name, with numbers read in decimal. A number outside the range of its parameter type, an option given twice, an unknown option and a missing value are usage errors: exit status 1 and nothing is hashed. --help and --version hash nothing. Every setting of the options can be written, and what is then printed is the digest with exactly those parameters.", "quantifier": "all command lines in which options and values can be told apart (any items, any order, any numbers of any length, any paths), both pointer widths, all inputs and the ways they arrive", "why_tests_cant": "The tests run eleven command lines; that no other combination, order or value is taken for something else, and that each name is attached to the right field and type, is a statement about all of them.", "anchors": ["blake2_bin/src/main.rs: Opt, main", "blake2_bin/README.md", "blake2_bin/tests/test.rs: test_stdin, test_all_parameters_blake2b, test_all_parameters_blake2sp"]}
{"id": "C66", "title": "The examples in the documentation are true", "statement": "Each example in the documentation comments of the two crates, generalised to any inputs, builder calls and expected outputs, passes if the expected output is the one of RFC 7693 (the arguments in range) and otherwise panics; the examples of State, update_many and hash_many, which compare results of the library with one another, pass for all inputs. With the values written there all of them pass, on every machine and in every build, and the command lines in the README files print what is shown under them.", "quantifier": "all inputs, numbers of inputs, sequences of builder calls and expected outputs, all machines, debug and release builds, all ways in which standard input can arrive", "why_tests_cant": "A documentation test checks one value on one machine; the examples in the README files are not run by any test.", "anchors": ["blake2b/src/lib.rs: Params", "blake2b/src/lib.rs: State", "blake2s/src/lib.rs: Params", "blake2s/src/lib.rs: State", "blake2b/src/many.rs: update_many", "blake2b/src/many.rs: hash_many", "blake2s/src/many.rs: update_many", "blake2s/src/many.rs: hash_many", "blake2b/src/blake2bp.rs", "blake2s/src/blake2sp.rs", "README.md", "blake2b/README.md", "blake2s/README.md", "blake2_bin/README.md"]}
{"id": "C67", "title": "The program that runs all tests is green only if everything passed", "statement": "The program started by continuous integration exits with status 0 exactly if each of the twelve test and check commands it should run (each crate with and without its default features, the release and uninline_portable builds, both fuzz crates) was run, once and in order, in its directory and with the target directory of the caller or of the project, and succeeded. Otherwise it stops at the first command that did not succeed: status 1 with the announcement if it failed, 101 if it could not be started; no later command is run.", "quantifier": "all project directories, target directories and outcomes of the commands, which may depend on everything that ran before", "why_tests_cant": "The program is what runs the tests; nothing tests that it notices a failure of any of the commands.", "anchors": ["run_all_tests/src/main.rs: main, run_cargo_cmd, run_cmd, project_root"]}
{"id": "C68", "title": "The C library the benchmarks compare with computes the same functions", "statement": "On a processor with AVX2 the functions blake2b, blake2bp and blake2sp of the crate around the vendored C library return BLAKE2b, BLAKE2bp and BLAKE2sp of the input at full length, hence the same digests as this library on every platform; the C code reads and writes nothing out of bounds and ends. That holds for each of the three ways the C code can be compiled to load a message: shuffles (as the build script has it), gathers, or single loads. On a processor without AVX2 they panic and no AVX2 instruction is run. The benchmarks of the C library count, for each run, the bytes whose digest was computed. The test of the crate passes exactly if the vectors in the file are right and 768 of them apply, which is so for the file in the repository.", "quantifier": "all inputs of fewer than 2^63 bytes, all machines, the three ways to load a message, all numbers of runs, page sizes, buffers and shuffles in the benchmarks, all files of vectors", "why_tests_cant": "Its test compares inputs of at most 255 bytes, fewer than the 512 bytes one turn of the main loop of either tree hash takes; nothing compares the two libraries on the inputs of the benchmarks.", "anchors": ["benches/blake2-avx2-sneves/src/lib.rs: blake2b, blake2bp, blake2sp, check_avx2, test_vectors", "benches/blake2-avx2-sneves/blake2-avx2/blake2b.c", "benches/blake2-avx2-sneves/blake2-avx2/blake2bp.c", "benches/blake2-avx2-sneves/blake2-avx2/blake2sp.c", "benches/bench.rs: bench_long_sneves_blake2b, bench_long_sneves_blake2bp, bench_long_sneves_blake2sp"]}
{"id": "C69", "title": "The tests that compare the library with itself notice every wrong answer", "statement": "Put any other function in the place of the one under test - hash_many, update_many, the tree API, a compression loop, the detection of the platform, the degree - in the tests that compare it with another part of the library. The test passes exactly if that function gives the right answers on the inputs of the test: for hash_many and update_many the digest (and count) of every item, for the tree API the digest of the specification after one and after two updates, the counts and the one-shot digest, for a loop the words the portable implementation gives in every lane, for detection what the processor supports. A wrong answer on any of them is a failed test, never a silent pass.", "quantifier": "all functions in the place of the tested one (for hash_many and update_many in the fuzz tests and examples: all that work in place), all parameters, inputs, batch lengths, lanes, counters, flags, strides, machines and build modes", "why_tests_cant": "A test run shows that the test passes with the right code; that it fails with every wrong one is a statement about all programs.", "anchors": ["tests/fuzz_many.rs: fuzz_blake2b_hash_many, fuzz_blake2b_update_many", "blake2b/src/many.rs: test_hash_many, test_update_many, test_degree", "blake2b/src/blake2bp.rs: test_against_reference", "blake2b/src/guts.rs: exercise_compress1_loop, exercise_compress2_loop, exercise_compress4_loop, test_detection", "blake2s/src/guts.rs: exercise_compress8_loop"]}
{"id": "C70", "title": "What to_hash gives away before the job is run", "statement": "Called on a job that hash_many has not run (and that is not a keyed job with empty input), to_hash panics in a debug build. In a release build it returns a value that is the same for every input: without a key the initial value of the parameters, with a key the chaining value after the key block. The latter stands for the key: from it, the last-node flag and a non-empty message anyone can compute the keyed hash of the message without knowing the key. If the iterator given to hash_many panics after yielding the job and the panic is caught, the same value is returned in debug builds too, on a machine with SIMD.", "quantifier": "all platforms, sequences of builder calls, keys, inputs and messages; debug and release builds", "why_tests_cant": "That a value determines the keyed hashes of all messages is a statement about all messages; the tests only check that to_hash panics.", "anchors": ["blake2b/src/many.rs: HashManyJob::new", "blake2b/src/many.rs: HashManyJob::to_hash", "blake2b/src/many.rs: hash_many", "blake2s/src/many.rs: HashManyJob::new", "blake2s/src/many.rs: HashManyJob::to_hash", "blake2s/src/many.rs: hash_many"]}
{"id": "C71", "title": "The answers do not depend on the kind of machine", "statement": "On targets other than x86, where only the portable implementation is compiled, and whether the machine stores integers with the low-order or the high-order byte first, every program over the public API gets the same answers as on x86: the specified ones, with the documented panics and no others. In particular the one-shot functions return the digests of RFC 7693.", "quantifier": "all targets (x86, or others of either byte order), all sequences of calls, platforms, parameters and inputs, debug and release builds", "why_tests_cant": "Continuous integration runs the same few examples on two big-endian targets; that no conversion is forgotten on any path is a statement about all programs.", "anchors": [".github/workflows/ci.yml: cross_tests", "blake2b/src/lib.rs: Params::to_words", "blake2b/src/lib.rs: state_words_to_bytes", "blake2s/src/lib.rs: Params::to_words", "blake2s/src/lib.rs: state_words_to_bytes", "blake2b/src/portable.rs: compress_block", "blake2s/src/portable.rs: compress_block", "blake2b/src/many.rs: compress_many", "blake2s/src/many.rs: compress_many", "blake2b/src/blake2bp.rs: finalize_root_words", "blake2s/src/blake2sp.rs: finalize_root_words"]}
{"id": "C72", "title": "A hash shows its digest and nothing else", "statement": "Two hashes with the same bytes cannot be told apart by any program: put either in the same place among the values a client holds, then every sequence of calls, with any other values, gives the same answers and the same panics. The one exception is as_array in a release build: it shows the whole output before it was cut to the configured length, and there are inputs with the same short digest and different arrays.", "quantifier": "all hashes a client can obtain, all values held besides, all sequences of calls, debug and release builds; all parameters and inputs for what as_array shows", "why_tests_cant": "That no sequence of calls distinguishes two values is a statement about all programs.", "anchors": ["blake2b/src/lib.rs: Hash::as_bytes", "blake2b/src/lib.rs: Hash::as_array", "blake2b/src/lib.rs: Hash::to_hex", "blake2b/src/lib.rs: constant_time_eq", "blake2s/src/lib.rs: Hash::as_bytes", "blake2s/src/lib.rs: Hash::as_array", "blake2s/src/lib.rs: Hash::to_hex", "blake2s/src/lib.rs: constant_time_eq"]}
{"id": "C73", "title": "Programs that catch panics go on with right values", "statement": "A client may run any calls under catch_unwind and go on with what it holds. Exactly the documented calls panic, and a call that panics changes nothing. If an iterator given to update_many or hash_many panics, the states or jobs it had yielded are updated or finished as if it had ended there, except fewer of them than the loop has lanes, whose digests may then be wrong; clones and hashes made from those few inherit this, and nothing else does: every other answer, now and later, is the one the specification gives for the program without the panics.", "quantifier": "all sequences of calls and of batches whose iterator panics at any point, all parameters, inputs and platforms, debug and release builds", "why_tests_cant": "The statement ranges over every history with a panic at every point; tests of the crate catch no panic.", "anchors": ["blake2b/src/lib.rs: Params", "blake2b/src/lib.rs: State::count", "blake2b/src/lib.rs: Hash::as_array", "blake2s/src/lib.rs: Params", "blake2s/src/lib.rs: State::count", "blake2s/src/lib.rs: Hash::as_array", "blake2b/src/many.rs: update_many", "blake2b/src/many.rs: hash_many", "blake2b/src/many.rs: compress_many", "blake2b/src/many.rs: HashManyJob::to_hash", "blake2s/src/many.rs: update_many", "blake2s/src/many.rs: hash_many", "blake2s/src/many.rs: compress_many", "blake2s/src/many.rs: HashManyJob::to_hash"]}
{"id": "C74", "title": "Hashing takes linear time", "statement": "Every call takes time linear in the number of blocks it is given, with fixed costs per call, per item of a batch and per character printed, and a whole program takes time linear in its size. Neither the contents of a message, nor its division over calls, nor what was hashed before, nor the lengths and the order of the items of a batch make a call slower, and every loop ends.", "quantifier": "all sequences of calls, all parameters, inputs, batches and platforms, debug and release builds, calls that panic included", "why_tests_cant": "A benchmark measures some inputs of some sizes; an input or a batch for which the work is quadratic would be missed.", "anchors": ["blake2b/src/lib.rs: Params", "blake2b/src/lib.rs: State::update", "blake2b/src/lib.rs: State::finalize", "blake2s/src/lib.rs: Params", "blake2s/src/lib.rs: State::update", "blake2s/src/lib.rs: State::finalize", "blake2b/src/many.rs: compress_many", "blake2b/src/many.rs: update_many", "blake2b/src/many.rs: hash_many", "blake2s/src/many.rs: compress_many", "blake2s/src/many.rs: update_many", "blake2s/src/many.rs: hash_many", "blake2b/src/guts.rs: Implementation::compress1_loop", "blake2s/src/guts.rs: Implementation::compress1_loop", "blake2b/src/blake2bp.rs: State::update", "blake2s/src/blake2sp.rs: State::update"]}
