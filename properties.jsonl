{"id": "C01", "title": "LCRNG jump equals repeated next", "statement": "For every LCRNG class (any add/mult, forward or reversed, 32- or 64-bit), jump(n) leaves the generator with the same seed, and returns the same value, as n successive calls of next(); a distance that does not fit the jump table (n >= 2^32, resp. 2^64) raises instead of silently giving a wrong seed.", "quantifier": "every add, mult, starting seed and every distance n", "why_tests_cant": "2^32 (2^64) seeds times 2^32 (2^64) distances; a test samples a handful", "anchors": ["numba_pokemon_prngs/lcrng/lcrng32.py:lcrng32_init.jump", "numba_pokemon_prngs/lcrng/lcrng64.py:lcrng64_init.jump"]}
{"id": "C02", "title": "LCRNG const_jump equals jump", "statement": "The function built by const_jump(n) has the same effect and result on every generator as jump(n).", "quantifier": "every class constants, seed and distance n", "why_tests_cant": "2^32 (2^64) seeds times 2^32 (2^64) distances; a test samples a handful", "anchors": ["numba_pokemon_prngs/lcrng/lcrng32.py:const_jump", "numba_pokemon_prngs/lcrng/lcrng64.py:const_jump"]}
{"id": "C03", "title": "LCRNG distances add up", "statement": "advance(n) equals n calls of next(), and jumping a then b is the same as jumping (a+b) modulo 2^32 (2^64), for the odd multipliers of the shipped classes and their inverses (for any multiplier without the reduction), whatever mix of next/advance/jump produced the distance.", "quantifier": "every seed and every history of next, advance and jump calls", "why_tests_cant": "unbounded histories", "anchors": ["numba_pokemon_prngs/lcrng/lcrng32.py:LCRNG32.advance", "numba_pokemon_prngs/lcrng/lcrng64.py:LCRNG64.advance", "numba_pokemon_prngs/lcrng/lcrng32.py:jump", "numba_pokemon_prngs/lcrng/lcrng64.py:jump"]}
{"id": "C04", "title": "Reversed LCRNG classes undo the forward ones", "statement": "For PokeRNG/ARNG/XDRNG/BWRNG and their reversed classes, reverse.next undoes forward.next and vice versa, for any number of steps, so walking n forward and n back restores the seed and replays the same seeds in reverse order. It holds for any odd multiplier passed with reverse=True.", "quantifier": "every odd multiplier, every add, every seed, every n", "why_tests_cant": "tests check five consecutive values per class from one seed", "anchors": ["numba_pokemon_prngs/lcrng/lcrng32.py:lcrng32_init", "numba_pokemon_prngs/lcrng/lcrng64.py:lcrng64_init", "numba_pokemon_prngs/lcrng/__init__.py:PokeRNGMod", "numba_pokemon_prngs/lcrng/__init__.py:PokeRNGRMod", "numba_pokemon_prngs/lcrng/__init__.py:ARNGR", "numba_pokemon_prngs/lcrng/__init__.py:XDRNGR", "numba_pokemon_prngs/lcrng/__init__.py:BWRNGR"]}
{"id": "C05", "title": "LCRNG full period", "statement": "Every shipped LCRNG class visits all 2^32 (2^64) seeds before repeating: n next() calls return to the starting seed exactly when 2^32 (2^64) divides n, and from any seed every other seed is reached at exactly one distance below 2^32 (2^64).", "quantifier": "every shipped class, every pair of seeds", "why_tests_cant": "walking 2^64 states is impossible", "anchors": ["numba_pokemon_prngs/lcrng/__init__.py:PokeRNGMod", "numba_pokemon_prngs/lcrng/__init__.py:ARNG", "numba_pokemon_prngs/lcrng/__init__.py:XDRNG", "numba_pokemon_prngs/lcrng/__init__.py:BWRNG", "numba_pokemon_prngs/lcrng/__init__.py:PokeRNGRMod", "numba_pokemon_prngs/lcrng/__init__.py:ARNGR", "numba_pokemon_prngs/lcrng/__init__.py:XDRNGR", "numba_pokemon_prngs/lcrng/__init__.py:BWRNGR"]}
{"id": "C06", "title": "Modulo distribution range and formula", "statement": "With the MODULO distribution next_rand(maximum) advances the seed exactly once and returns the top 16 bits modulo maximum, always in [0, maximum), for every maximum in 1..65535; maximum 0 is a division by zero.", "quantifier": "every seed and every 16-bit maximum", "why_tests_cant": "2^48 combinations", "anchors": ["numba_pokemon_prngs/lcrng/lcrng32.py:next_rand", "numba_pokemon_prngs/lcrng/lcrng32.py:next_u16"]}
{"id": "C07", "title": "Reciprocal-division distribution range", "statement": "With RECIPROCAL_DIVISION next_rand(maximum) returns a value in [0, maximum) for every maximum in 1..65535.", "quantifier": "every seed and every 16-bit maximum", "why_tests_cant": "2^48 combinations; the boundary maximum=1 is not tested", "anchors": ["numba_pokemon_prngs/lcrng/lcrng32.py:next_rand"]}
{"id": "C08", "title": "Multiplication-shift distribution of the 64-bit LCRNG", "statement": "next_rand(maximum) advances once and returns floor(top32 * maximum / 2^32), in [0, maximum) for every maximum in 1..2^32-1 with no overflow, and it is monotone in the raw 32-bit draw.", "quantifier": "every seed and every 32-bit maximum", "why_tests_cant": "2^96 combinations", "anchors": ["numba_pokemon_prngs/lcrng/lcrng64.py:next_rand", "numba_pokemon_prngs/lcrng/lcrng64.py:next_u32"]}
{"id": "C09", "title": "Multiplication-shift draws are balanced", "statement": "Over the 2^32 possible raw draws, every value in [0, maximum) is produced by either floor(2^32/maximum) or ceil(2^32/maximum) draws.", "quantifier": "every maximum in 1..2^32-1 and every value below it", "why_tests_cant": "counting 2^32 draws per maximum", "anchors": ["numba_pokemon_prngs/lcrng/lcrng64.py:next_rand", "numba_pokemon_prngs/mersenne_twister/mt.py:next_rand", "numba_pokemon_prngs/mersenne_twister/tinymt.py:next_rand"]}
{"id": "C10", "title": "const_rand equals next_rand", "statement": "The function built by const_rand(maximum) returns the same value and leaves the same seed as next_rand(maximum), including when it fails.", "quantifier": "every class, seed and maximum", "why_tests_cant": "all seeds/maxima", "anchors": ["numba_pokemon_prngs/lcrng/lcrng32.py:const_rand", "numba_pokemon_prngs/lcrng/lcrng64.py:const_rand"]}
{"id": "C11", "title": "Modular inverse", "statement": "mod_inv(value, modulus) returns the unique x in [0, modulus) with value*x = 1 (mod modulus) for every non-negative value and positive modulus when they are coprime, and raises ValueError exactly when they are not, on Python versions without pow(-1).", "quantifier": "every value and every modulus > 1", "why_tests_cant": "unbounded integers", "anchors": ["numba_pokemon_prngs/compatability.py:mod_inv"]}
{"id": "C12", "title": "re_init is indistinguishable from a new object", "statement": "For every generator class, re_init(seed...) after any history leaves an object that behaves exactly like a newly constructed one with the same arguments.", "quantifier": "every class, every prior state, every seed", "why_tests_cant": "all prior histories", "anchors": ["numba_pokemon_prngs/lcrng/lcrng32.py:LCRNG32.re_init", "numba_pokemon_prngs/lcrng/lcrng64.py:LCRNG64.re_init", "numba_pokemon_prngs/mersenne_twister/mt.py:MersenneTwister.re_init", "numba_pokemon_prngs/mersenne_twister/sfmt.py:SIMDFastMersenneTwister.re_init", "numba_pokemon_prngs/mersenne_twister/tinymt.py:TinyMersenneTwister.re_init", "numba_pokemon_prngs/xorshift/xorshift128.py:Xorshift128.re_init", "numba_pokemon_prngs/xorshift/xoroshiro128plus.py:Xoroshiro128PlusRejection.re_init", "numba_pokemon_prngs/xorshift/xoroshiro128plus.py:SplitMixXoroshiro128Plus.re_init"]}
{"id": "C13", "title": "Mersenne Twister computes MT19937", "statement": "The k-th value returned by MersenneTwister(seed).next() is the tempered (624+k)-th term of the MT19937 recurrence started from the standard Knuth initialisation of the seed, for every k.", "quantifier": "every 32-bit seed and every output index k", "why_tests_cant": "unbounded output index, all seeds", "anchors": ["numba_pokemon_prngs/mersenne_twister/mt.py:MersenneTwister.next", "numba_pokemon_prngs/mersenne_twister/mt.py:MersenneTwister.shuffle", "numba_pokemon_prngs/mersenne_twister/mt.py:MersenneTwister.re_init"]}
{"id": "C14", "title": "Mersenne Twister advance equals discarding outputs", "statement": "In any history of next and advance calls, advance(n) is observationally the same as calling next() n times and discarding the results.", "quantifier": "every seed, every interleaving of next()/advance(n) and every n", "why_tests_cant": "unbounded histories; block boundaries at multiples of 624", "anchors": ["numba_pokemon_prngs/mersenne_twister/mt.py:MersenneTwister.advance", "numba_pokemon_prngs/mersenne_twister/mt.py:MersenneTwister.next"]}
{"id": "C15", "title": "Mersenne Twister advance does not depend on the execution mode", "statement": "advance(n) gives the same stream with and without numba for every 32-bit n.", "quantifier": "every n in [0,2^32) and every internal position", "why_tests_cant": "only huge n differ; running 2^32 steps without numba is infeasible", "anchors": ["numba_pokemon_prngs/mersenne_twister/mt.py:MersenneTwister.advance", "numba_pokemon_prngs/mersenne_twister/sfmt.py:SIMDFastMersenneTwister.advance"]}
{"id": "C16", "title": "Mersenne Twister never reads outside its state", "statement": "In every history of calls the position stays in 0..624 and all 624-word accesses are in bounds.", "quantifier": "every history of next/advance/next_rand/shuffle/re_init", "why_tests_cant": "all histories", "anchors": ["numba_pokemon_prngs/mersenne_twister/mt.py:MersenneTwister", "numba_pokemon_prngs/mersenne_twister/sfmt.py:SIMDFastMersenneTwister"]}
{"id": "C17", "title": "Mersenne Twister outputs determine the state words", "statement": "Tempering is a bijection on 32-bit words, so a returned value identifies the state word it came from (state recovery from 624 outputs is possible).", "quantifier": "every 32-bit word", "why_tests_cant": "2^32 words times inversion", "anchors": ["numba_pokemon_prngs/mersenne_twister/mt.py:MersenneTwister.next"]}
{"id": "C18", "title": "Mersenne Twister bounded draws", "statement": "next_rand(maximum) and next_rand_mod(maximum) return values in [0, maximum) computed from exactly one next() value by multiplication-shift resp. modulo.", "quantifier": "every state, every 32-bit maximum >= 1", "why_tests_cant": "2^64 combinations", "anchors": ["numba_pokemon_prngs/mersenne_twister/mt.py:next_rand", "numba_pokemon_prngs/mersenne_twister/mt.py:next_rand_mod", "numba_pokemon_prngs/mersenne_twister/tinymt.py:next_rand", "numba_pokemon_prngs/mersenne_twister/tinymt.py:next_rand_mod"]}
{"id": "C19", "title": "SFMT vectorised and scalar shuffles agree", "statement": "The numba (LLVM vector) implementation of the SFMT shuffle and the plain Python one transform every 624-word state identically.", "quantifier": "every 624-word state", "why_tests_cant": "2^19968 states", "anchors": ["numba_pokemon_prngs/mersenne_twister/sfmt.py:sfmt_shuffle", "numba_pokemon_prngs/mersenne_twister/sfmt.py:sfmt_shuffle_ir"]}
{"id": "C20", "title": "SFMT computes SFMT19937", "statement": "The k-th value of SIMDFastMersenneTwister(seed).next() is the k-th 64-bit half of the 128-bit SFMT19937 recurrence started from the certified initial state, for every k.", "quantifier": "every seed and every output index", "why_tests_cant": "unbounded output index", "anchors": ["numba_pokemon_prngs/mersenne_twister/sfmt.py:SIMDFastMersenneTwister.next", "numba_pokemon_prngs/mersenne_twister/sfmt.py:sfmt_shuffle", "numba_pokemon_prngs/mersenne_twister/sfmt.py:SIMDFastMersenneTwister.re_init"]}
{"id": "C21", "title": "SFMT period certification", "statement": "After construction or re_init with any seed the state satisfies the SFMT19937 parity condition (odd parity against 0x1,0x0,0x0,0x13C9E684), and only the lowest bit of word 0 was altered to get there.", "quantifier": "every 32-bit seed", "why_tests_cant": "all seeds", "anchors": ["numba_pokemon_prngs/mersenne_twister/sfmt.py:SIMDFastMersenneTwister.re_init"]}
{"id": "C22", "title": "SFMT advance equals discarding outputs", "statement": "In any history, advance(n) is observationally n discarded next() calls (two words per call), and the position stays even so a 64-bit value never straddles a block.", "quantifier": "every seed, every interleaving, every n", "why_tests_cant": "unbounded histories", "anchors": ["numba_pokemon_prngs/mersenne_twister/sfmt.py:SIMDFastMersenneTwister.advance", "numba_pokemon_prngs/mersenne_twister/sfmt.py:SIMDFastMersenneTwister.next"]}
{"id": "C23", "title": "SFMT bounded draw", "statement": "next_rand(maximum) is the next 64-bit value modulo maximum and lies in [0, maximum).", "quantifier": "every state, every 64-bit maximum >= 1", "why_tests_cant": "2^64 maxima", "anchors": ["numba_pokemon_prngs/mersenne_twister/sfmt.py:next_rand"]}
{"id": "C24", "title": "TinyMT state never degenerates", "statement": "For every seed and after any number of steps the 127-bit TinyMT state is non-zero, so the generator never gets stuck at zero.", "quantifier": "every seed, every number of steps", "why_tests_cant": "all seeds, unbounded steps", "anchors": ["numba_pokemon_prngs/mersenne_twister/tinymt.py:TinyMersenneTwister.re_init", "numba_pokemon_prngs/mersenne_twister/tinymt.py:shuffle"]}
{"id": "C25", "title": "TinyMT streams never merge and are reversible", "statement": "One TinyMT step is injective on the 127-bit state (the top bit of word 0 is irrelevant), so two generators in different effective states never merge.", "quantifier": "every pair of states", "why_tests_cant": "2^254 pairs", "anchors": ["numba_pokemon_prngs/mersenne_twister/tinymt.py:shuffle"]}
{"id": "C26", "title": "TinyMT advance equals discarding outputs", "statement": "advance(n) leaves the same state as n calls of next(); n = 0 does nothing.", "quantifier": "every state and n", "why_tests_cant": "unbounded n", "anchors": ["numba_pokemon_prngs/mersenne_twister/tinymt.py:advance", "numba_pokemon_prngs/mersenne_twister/tinymt.py:next"]}
{"id": "C27", "title": "Xorshift128 previous undoes next", "statement": "After any number n of next() calls, n previous() calls restore the exact state and return the same outputs in reverse order; likewise previous then next.", "quantifier": "every 128-bit state, every n", "why_tests_cant": "2^128 states", "anchors": ["numba_pokemon_prngs/xorshift/xorshift128.py:next", "numba_pokemon_prngs/xorshift/xorshift128.py:previous"]}
{"id": "C28", "title": "Xorshift128 bounded draws", "statement": "next_rand(maximum) is in [0, maximum); next_randrange(minimum, maximum), read as a signed 32-bit number, is in [minimum, maximum) for all signed 32-bit minimum < maximum (also across zero and for the full span); next_alternate_rand(maximum) is in [0, maximum). Each consumes exactly one draw.", "quantifier": "every state and all admissible bounds", "why_tests_cant": "2^64 bound pairs", "anchors": ["numba_pokemon_prngs/xorshift/xorshift128.py:next_rand", "numba_pokemon_prngs/xorshift/xorshift128.py:next_randrange", "numba_pokemon_prngs/xorshift/xorshift128.py:next_alternate_rand"]}
{"id": "C29", "title": "Xorshift128 float draws stay inside the half-open interval", "statement": "next_float_randrange(minimum, maximum) returns a float in [minimum, maximum).", "quantifier": "every state and bounds minimum < maximum", "why_tests_cant": "the excluded endpoint needs a specific 23-bit draw", "anchors": ["numba_pokemon_prngs/xorshift/xorshift128.py:next_float_randrange"]}
{"id": "C30", "title": "Xoroshiro128+ previous undoes next", "statement": "For both Xoroshiro128+ classes n next() calls followed by n previous() calls restore the state and return the outputs in reverse order; likewise previous then next.", "quantifier": "every 128-bit state, every n", "why_tests_cant": "2^128 states", "anchors": ["numba_pokemon_prngs/xorshift/xoroshiro128plus.py:Xoroshiro128PlusRejection.next", "numba_pokemon_prngs/xorshift/xoroshiro128plus.py:Xoroshiro128PlusRejection.previous", "numba_pokemon_prngs/xorshift/xoroshiro128plus.py:SplitMixXoroshiro128Plus.next", "numba_pokemon_prngs/xorshift/xoroshiro128plus.py:SplitMixXoroshiro128Plus.previous"]}
{"id": "C31", "title": "Rejection-sampling mask", "statement": "bit_mask(m) is the smallest number of the form 2^k - 1 that is at least m-1, for every m in 1..2^32-1.", "quantifier": "every 32-bit m >= 1", "why_tests_cant": "2^32 values", "anchors": ["numba_pokemon_prngs/xorshift/xoroshiro128plus.py:bit_mask"]}
{"id": "C32", "title": "Rejection sampling returns the first acceptable draw", "statement": "When Xoroshiro128PlusRejection.next_rand(maximum) returns, the result is in [0, maximum), equals the first masked output below maximum in the stream, and exactly the rejected draws plus one were consumed.", "quantifier": "every state, every maximum >= 1", "why_tests_cant": "unbounded number of rejections", "anchors": ["numba_pokemon_prngs/xorshift/xoroshiro128plus.py:Xoroshiro128PlusRejection.next_rand"]}
{"id": "C33", "title": "Rejection sampling of an empty range does not terminate", "statement": "next_rand(0) of Xoroshiro128PlusRejection never returns.", "quantifier": "every state", "why_tests_cant": "non-termination cannot be tested", "anchors": ["numba_pokemon_prngs/xorshift/xoroshiro128plus.py:Xoroshiro128PlusRejection.next_rand"]}
{"id": "C34", "title": "Splitmix seeding", "statement": "Splitmix seeding yields a non-zero Xoroshiro state for every 64-bit seed, different seeds give different states, and the two words are the first two outputs of the reference SplitMix64 generator.", "quantifier": "every 64-bit seed", "why_tests_cant": "2^64 seeds", "anchors": ["numba_pokemon_prngs/xorshift/xoroshiro128plus.py:SplitMixXoroshiro128Plus.re_init", "numba_pokemon_prngs/xorshift/xoroshiro128plus.py:splitmix"]}
{"id": "C35", "title": "Xoroshiro128+ advance and zero state", "statement": "advance(n) equals n next() calls; a non-zero state never reaches the all-zero state and the all-zero state is a fixed point.", "quantifier": "every state, every n", "why_tests_cant": "2^128 states", "anchors": ["numba_pokemon_prngs/xorshift/xoroshiro128plus.py:advance", "numba_pokemon_prngs/xorshift/xoroshiro128plus.py:next"]}
{"id": "C36", "title": "RNGList is a sliding window over the generator's stream", "statement": "For any history of get_value/advance/advance_state/advance_states, get_value returns the generator's output number (states advanced) + (position modulo size), i.e. cached reads never differ from re-running the generator, and advance_state resets the reading position to the start of the shifted window.", "quantifier": "every generator, every power-of-two size up to 65536, every history of calls", "why_tests_cant": "unbounded histories", "anchors": ["numba_pokemon_prngs/rng_list.py:build_rnglist", "numba_pokemon_prngs/rng_list.py:SpecificRNGList"]}
{"id": "C37", "title": "RNGList supports every power-of-two size", "statement": "build_rnglist accepts any power-of-two size and the resulting list behaves as a window of that size.", "quantifier": "every power-of-two size", "why_tests_cant": "large sizes", "anchors": ["numba_pokemon_prngs/rng_list.py:build_rnglist"]}
{"id": "C38", "title": "SHA-1 seed hash", "statement": "hash_seed(precompute()) equals one BWRNG step applied to the first two (byte-swapped) words of the standard SHA-1 compression of the 16-word message described by the object, for every message content.", "quantifier": "every 16-word block (version, language, console, mac, flags, timer0, vcount, date, time, buttons)", "why_tests_cant": "2^512 messages; optimised message schedule and split rounds", "anchors": ["numba_pokemon_prngs/sha1.py:SHA1.hash_seed", "numba_pokemon_prngs/sha1.py:SHA1.precompute", "numba_pokemon_prngs/sha1.py:SHA1.calc_w", "numba_pokemon_prngs/sha1.py:SHA1.calc_w_simd"]}
{"id": "C39", "title": "SHA-1 precomputed values stay valid while only time and buttons change", "statement": "After precompute(), any history of set_time, set_button and hash_seed calls leaves the returned alpha valid: every hash_seed(alpha) still equals the full SHA-1 seed of the current message.", "quantifier": "every history of set_time/set_button/hash_seed after precompute", "why_tests_cant": "unbounded histories, stale-cache bugs", "anchors": ["numba_pokemon_prngs/sha1.py:SHA1.precompute", "numba_pokemon_prngs/sha1.py:SHA1.hash_seed", "numba_pokemon_prngs/sha1.py:SHA1.set_time", "numba_pokemon_prngs/sha1.py:SHA1.set_button"]}
{"id": "C40", "title": "SHA-1 date and time encoding", "statement": "set_date/set_time write BCD fields that can be decoded back: different valid dates (year 2000-2099) and times give different message words, hours from 12 get the PM bit exactly on DS/DSi, and the other message words are untouched.", "quantifier": "every valid date/time and console type", "why_tests_cant": "combinatorial", "anchors": ["numba_pokemon_prngs/sha1.py:SHA1.set_date", "numba_pokemon_prngs/sha1.py:SHA1.set_time", "numba_pokemon_prngs/sha1.py:BCD"]}
{"id": "C41", "title": "SHA-1 message construction", "statement": "The constructor places the nazo words, MAC, soft-reset flag, vframe and gxstate in the documented message words, the padding words are those of a 52-byte SHA-1 message, and the nazo lookup depends on the console only through DS versus not-DS, returning zeros outside the four Gen 5 games.", "quantifier": "every version, language, console, mac, flags", "why_tests_cant": "all parameter combinations", "anchors": ["numba_pokemon_prngs/sha1.py:SHA1.__init__", "numba_pokemon_prngs/sha1.py:get_nazo", "numba_pokemon_prngs/sha1.py:compute_nazo_bw", "numba_pokemon_prngs/sha1.py:compute_nazo_bw2"]}
{"id": "C42", "title": "Endian swap", "statement": "change_endian_u32 reverses the four bytes of every 32-bit value and is its own inverse.", "quantifier": "every 32-bit value", "why_tests_cant": "2^32 values", "anchors": ["numba_pokemon_prngs/util.py:change_endian_u32"]}
{"id": "C43", "title": "Rotations", "statement": "rotate_left/right_u32/u64 rotate by count for every count in 0..width, preserve every bit, and are inverse to each other.", "quantifier": "every value and count", "why_tests_cant": "2^64 values", "anchors": ["numba_pokemon_prngs/util.py:rotate_left_u32", "numba_pokemon_prngs/util.py:rotate_right_u32", "numba_pokemon_prngs/util.py:rotate_left_u64", "numba_pokemon_prngs/util.py:rotate_right_u64"]}
{"id": "C44", "title": "Hex formatting round-trips", "statement": "hex_32(n) is always 8 upper-case hex digits and parsing it gives back n.", "quantifier": "every 32-bit value", "why_tests_cant": "2^32 values", "anchors": ["numba_pokemon_prngs/util.py:hex_32"]}
{"id": "C45", "title": "Nature-modified stat is exact despite float32", "statement": "compute_stat(stat, nature, index) equals floor(stat * m / 100) with m in {90,100,110}, for every 16-bit stat whose result fits: single-precision rounding never changes the integer result.", "quantifier": "every stat, nature and index", "why_tests_cant": "65536 x 25 x 5 float roundings", "anchors": ["numba_pokemon_prngs/util.py:compute_stat", "numba_pokemon_prngs/util.py:NATURE_MODIFIERS"]}
{"id": "C46", "title": "Natures modify the stats the games modify", "statement": "In a generated state, a nature raises and lowers exactly the stats it does in the games (e.g. Brave: +Attack, -Speed).", "quantifier": "all 25 natures, all states", "why_tests_cant": "no test covers stats", "anchors": ["numba_pokemon_prngs/util.py:NATURE_MODIFIERS", "numba_pokemon_prngs/gen3/state.py:State.update_stats"]}
{"id": "C47", "title": "FNV hashes", "statement": "fnv1_64/fnv1a_64 follow the FNV-1/FNV-1a recurrence over the code points of every string, and two strings of the same length differing in exactly one position never collide.", "quantifier": "every string", "why_tests_cant": "unbounded strings", "anchors": ["numba_pokemon_prngs/fnv.py:fnv1_64", "numba_pokemon_prngs/fnv.py:fnv1a_64"]}
{"id": "C48", "title": "Gender from PID", "statement": "get_gender returns genderless/female/male for ratios 255/254/0 whatever the PID, otherwise female exactly when the low PID byte is below the ratio; for such ratios exactly ratio/256 of PIDs are female.", "quantifier": "every PID and ratio", "why_tests_cant": "2^40 combinations", "anchors": ["numba_pokemon_prngs/gen3/util.py:get_gender"]}
{"id": "C49", "title": "Shininess from PID", "statement": "get_shiny is 2 when PID-high xor PID-low xor tsv is 0, 1 when it is in 1..7, 0 otherwise.", "quantifier": "every PID and trainer value", "why_tests_cant": "2^48 combinations", "anchors": ["numba_pokemon_prngs/gen3/util.py:get_shiny"]}
{"id": "C50", "title": "Unown letter from PID", "statement": "For every PID exactly one form in 0..27 passes unown_check.", "quantifier": "every PID", "why_tests_cant": "2^32 PIDs", "anchors": ["numba_pokemon_prngs/gen3/util.py:unown_check"]}
{"id": "C51", "title": "Encounter slot tables follow the declared boundaries", "statement": "A roll r in 0..99 selects the slot i with ranges[i-1] <= r < ranges[i] (e.g. a 20% first grass slot).", "quantifier": "every list of increasing boundaries ending at 100 and every roll", "why_tests_cant": "the tables are never tested", "anchors": ["numba_pokemon_prngs/gen3/encounter_area_3.py:compute_table", "numba_pokemon_prngs/gen3/encounter_area_3.py:GRASS_TABLE"]}
{"id": "C52", "title": "Wild level stays within the slot", "statement": "calculate_level returns a level between the slot's minimum and maximum, Pressure never lowers the guaranteed bounds, and it consumes one draw (two with Pressure).", "quantifier": "every slot with min<=max, every rng state", "why_tests_cant": "all states", "anchors": ["numba_pokemon_prngs/gen3/encounter_area_3.py:calculate_level"]}
{"id": "C53", "title": "Slot selection", "statement": "calculate_hslot returns a slot of the area list belonging to the encounter type, consuming exactly one draw, never indexing out of range; with Magnet Pull/Static it returns either that or one of the type-filtered slots.", "quantifier": "every area, rng state, encounter type, lead", "why_tests_cant": "all states", "anchors": ["numba_pokemon_prngs/gen3/encounter_area_3.py:calculate_hslot", "numba_pokemon_prngs/gen3/encounter_area_3.py:calculate_hslot_lead"]}
{"id": "C54", "title": "Type-lead slot filter", "statement": "get_modified_slots returns exactly the slots of the current encounter type whose species has the lead's type, in order; other leads give none.", "quantifier": "every area, personal table, lead, game", "why_tests_cant": "all tables", "anchors": ["numba_pokemon_prngs/gen3/encounter_area_3.py:get_modified_slots"]}
{"id": "C55", "title": "Wild generator labels and completeness", "statement": "generate(seed, delay, initial, max, area) reports the encounter of every advance in initial..initial+max-1, labelled by its advance, each computed from the generator at initial+delay+(offset) steps; splitting a range into two calls gives the same list.", "quantifier": "every seed, delay, initial, max, area and generator setting for which it returns (it never does when initial + delay is 2^32 or more)", "why_tests_cant": "unbounded ranges", "anchors": ["numba_pokemon_prngs/gen3/wild_generator_3.py:WildGenerator3.generate"]}
{"id": "C56", "title": "Generated wild states are self-consistent", "statement": "Every reported state has nature = PID mod 25, ability slot = PID mod 2, gender/shininess derived from the PID, IVs in 0..31 taken from consecutive draws as the method (1/2/4) prescribes, level within the slot bounds, and species/form of a slot in the area.", "quantifier": "every input for which generate returns", "why_tests_cant": "all seeds", "anchors": ["numba_pokemon_prngs/gen3/wild_generator_3.py:WildGenerator3.generate", "numba_pokemon_prngs/gen3/state.py:GeneratorState"]}
{"id": "C57", "title": "Wild generation terminates", "statement": "The PID search ends for every input the data tables can produce.", "quantifier": "every seed, lead, area", "why_tests_cant": "non-termination cannot be tested", "anchors": ["numba_pokemon_prngs/gen3/wild_generator_3.py:WildGenerator3.generate", "numba_pokemon_prngs/gen3/wild_generator_3.py:cute_charm_check"]}
{"id": "C58", "title": "Encounter rate lookup", "statement": "get_encounter_rate returns the rate of the list used for the encounter type (land for grass, fishing for rods).", "quantifier": "every area and encounter type", "why_tests_cant": "not tested", "anchors": ["numba_pokemon_prngs/gen3/encounter_area_3.py:get_encounter_rate"]}
{"id": "C59", "title": "Leads only act in Emerald", "statement": "For any non-Emerald game the generated list is the same whatever lead is passed.", "quantifier": "every game without Emerald, every lead, every input", "why_tests_cant": "all inputs", "anchors": ["numba_pokemon_prngs/gen3/wild_generator_3.py:WildGenerator3.__init__"]}
{"id": "C60", "title": "Hidden power and characteristic", "statement": "Hidden power type is in 0..15 and its strength in 30..70 following the Gen 3 formula on the six IVs; the characteristic names the first highest IV in cyclic order starting at PID mod 6 and its value mod 5.", "quantifier": "every IV spread and PID", "why_tests_cant": "2^62 combinations", "anchors": ["numba_pokemon_prngs/gen3/state.py:State.update_stats"]}
{"id": "C61", "title": "Stat formula", "statement": "Stats follow floor((2*base+iv)*level/100) plus level+10 for HP or +5 then nature for the rest, without overflowing 16 bits for level <= 100.", "quantifier": "every base, iv, level, nature", "why_tests_cant": "all combinations", "anchors": ["numba_pokemon_prngs/gen3/state.py:State.update_stats"]}
{"id": "C62", "title": "Species/form packing round-trips", "statement": "Species and form packed into an encounter slot by the loader are recovered exactly by the generator, and the type lookup sees the same species.", "quantifier": "every species < 1024 and form < 32", "why_tests_cant": "all combinations", "anchors": ["numba_pokemon_prngs/data/encounter/__init__.py:load_encounter_3", "numba_pokemon_prngs/gen3/wild_generator_3.py:generate", "numba_pokemon_prngs/gen3/encounter_area_3.py:get_modified_slots"]}
{"id": "C63", "title": "Encounter cache is transparent", "statement": "A cached loader returns the same value as the uncached one on every call, in every history of calls and process restarts, for distinct arguments independently.", "quantifier": "every history of calls/restarts", "why_tests_cant": "unbounded histories", "anchors": ["numba_pokemon_prngs/data/encounter/__init__.py:pickle_cached"]}
{"id": "C64", "title": "Encounter cache survives a crash", "statement": "After a crash at any point of writing the cache, the next call still returns the right value.", "quantifier": "every crash point (number of bytes written)", "why_tests_cant": "crash points", "anchors": ["numba_pokemon_prngs/data/encounter/__init__.py:pickle_cached"]}
{"id": "C65", "title": "Game identifiers are distinct", "statement": "Every game has its own identifier bit, so game-specific lookups never confuse two games, and every supported game finds its own personal table.", "quantifier": "all pairs of games", "why_tests_cant": "enumeration of pairs is not tested", "anchors": ["numba_pokemon_prngs/enums/game.py:Game", "numba_pokemon_prngs/data/personal/__init__.py:get_info_table"]}
{"id": "C66", "title": "Gen 3 personal table selection", "statement": "get_info_table and get_info_table_3 agree on every Gen 3 game.", "quantifier": "all Gen 3 games", "why_tests_cant": "not tested", "anchors": ["numba_pokemon_prngs/data/personal/__init__.py:get_info_table", "numba_pokemon_prngs/data/personal/__init__.py:get_info_table_3"]}
{"id": "C67", "title": "Personal record layout", "statement": "Loading a personal file of any length gives one record per full record size, each field being the little-endian value at its offset, and writing the records back gives the original bytes of the complete records.", "quantifier": "every file content and record layout", "why_tests_cant": "arbitrary bytes", "anchors": ["numba_pokemon_prngs/data/personal/__init__.py:load_personal", "numba_pokemon_prngs/data/personal/personal_info.py:PersonalInfo3", "numba_pokemon_prngs/data/util.py:dtype_dataclass"]}
{"id": "C68", "title": "FlatBuffer field access", "statement": "Reading the k-th field (a scalar, a sub-table or a vector of tables) of a well-formed FlatBuffer table returns the stored value, or the default when absent, whatever other fields are present; so do the attributes of every Legends Arceus table class.", "quantifier": "every buffer, table and field layout", "why_tests_cant": "arbitrary buffers", "anchors": ["numba_pokemon_prngs/data/fbs/flatbuffer_object.py:FlatBufferObject", "numba_pokemon_prngs/data/fbs/encounter_la.py"]}
{"id": "C69", "title": "Legends Arceus slot choice", "statement": "calc_slot returns the slot whose cumulative weight interval contains rand times the total weight; slots with weight zero are never chosen while some slot has positive weight.", "quantifier": "every table, time, weather and rand in [0,1)", "why_tests_cant": "all weights", "anchors": ["numba_pokemon_prngs/data/encounter/encounter_area_la.py:EncounterAreaLA.calc_slot"]}
{"id": "C70", "title": "Legends Arceus multipliers are never negative", "statement": "After loading, every time and weather multiplier is the slot's own if non-negative, else the species' if non-negative, else 1.", "quantifier": "every slot and species multipliers", "why_tests_cant": "all floats", "anchors": ["numba_pokemon_prngs/data/encounter/__init__.py:load_encounter_tables_la"]}
{"id": "C71", "title": "Gen 3 loader slot placement", "statement": "The i-th fishing entry of an area ends up in old rod slot i, good rod slot i-2 or super rod slot i-5, land/water/rock entries keep their order (land entries of the Tanoby chambers with their Unown form), slots without an entry are zero, and skipped maps stay all-zero but keep numbering aligned with names. Loading succeeds whenever the lists fit and the species are known.", "quantifier": "every encounter list", "why_tests_cant": "arbitrary data files", "anchors": ["numba_pokemon_prngs/data/encounter/__init__.py:load_encounter_3", "numba_pokemon_prngs/data/encounter/encounter_area_3.py:EncounterArea3"]}
{"id": "C72", "title": "TinyMT computes TinyMT32", "statement": "The k-th value of TinyMersenneTwister(seed).next() is the 32-bit TinyMT32 output (parameters of the code) of the k-th state, for every seed and k, with and without numba.", "quantifier": "for all seeds, all k, both execution modes", "why_tests_cant": "A carry out of the 32-bit temper sum depends on the state; tests check a handful of seeds and use next_rand on a few values.", "anchors": ["numba_pokemon_prngs/mersenne_twister/tinymt.py:TinyMersenneTwister.next"]}
{"id": "C73", "title": "Xorshift generators do not depend on the execution mode", "statement": "One next() or previous() call of Xorshift128 and of both Xoroshiro128+ classes changes the state in the same way and returns the same value with numba compilation and as plain Python on numpy scalars.", "quantifier": "every state, both execution modes", "why_tests_cant": "2^128 states; shifts and sums have different intermediate widths in the two modes", "anchors": ["numba_pokemon_prngs/xorshift/xorshift128.py:next", "numba_pokemon_prngs/xorshift/xoroshiro128plus.py:next"]}
{"id": "C74", "title": "Xorshift128 is Marsaglia's generator", "statement": "The k-th output of Xorshift128 is the k-th term of Marsaglia's xorshift recurrence x(n) = x(n-1) ^ (x(n-1) >> 19) ^ y ^ (y >> 8), y = x(n-4) ^ (x(n-4) << 11), started from the four seed words.", "quantifier": "every four seed words, every k", "why_tests_cant": "2^128 seeds and unbounded streams", "anchors": ["numba_pokemon_prngs/xorshift/xorshift128.py:next"]}
{"id": "C75", "title": "Xoroshiro128+ is the reference generator", "statement": "Both Xoroshiro classes step the state as the reference xoroshiro128+ generator with constants 24, 16, 37; the rejection class returns the 64-bit reference output, the splitmix class its upper 32 bits.", "quantifier": "every state, every number of steps", "why_tests_cant": "2^128 states", "anchors": ["numba_pokemon_prngs/xorshift/xoroshiro128plus.py:next"]}
{"id": "C76", "title": "Hidden power strength is a whole number", "statement": "A generated state's hidden power strength is the whole number 30 + floor(40*b/63) of the game, whether or not numba is installed.", "quantifier": "every six IVs, both execution modes", "why_tests_cant": "2^30 IV combinations in two execution modes; the test suite runs only one mode", "anchors": ["numba_pokemon_prngs/gen3/state.py:__init__"]}
{"id": "C77", "title": "The Gen 3 wild generator gives the same result with and without numba", "statement": "Calling the Gen 3 wild generator without numba gives the same list of states as with numba.", "quantifier": "every generator, seed, delay, range and area", "why_tests_cant": "the test suite runs in one execution mode only; the claim relates two", "anchors": ["numba_pokemon_prngs/gen3/wild_generator_3.py:generate", "numba_pokemon_prngs/compilation.py:optional_njit"]}
{"id": "C78", "title": "Cache follows the installed data", "statement": "After the installed data files change (an upgrade of the package), the cached loader returns the value loaded from the new files.", "quantifier": "every pair of loaders, cache contents and arguments", "why_tests_cant": "the test suite never runs two versions against one cache directory", "anchors": ["numba_pokemon_prngs/data/encounter/__init__.py:pickle_cached"]}
{"id": "C79", "title": "FlatBuffer string access", "statement": "Reading a string field of a well-formed FlatBuffer table returns the stored string decoded as UTF-8, or the default when absent.", "quantifier": "every buffer, table, field and default", "why_tests_cant": "arbitrary buffers; every shipped string field is present", "anchors": ["numba_pokemon_prngs/data/fbs/flatbuffer_object.py:FlatBufferObject.read_string"]}
{"id": "C80", "title": "Legends Arceus slot levels", "statement": "Each loaded slot's minimum and maximum level is the slot's override level if it has one, else the table's, plus, for an alpha slot, the boost belonging to the species' alpha level index (levels 0 to 100); loading succeeds whenever every referenced entry exists.", "quantifier": "every table, slot, species data", "why_tests_cant": "all override/boost combinations", "anchors": ["numba_pokemon_prngs/data/encounter/__init__.py:load_encounter_tables_la"]}
{"id": "C81", "title": "Xoroshiro128+ has the full period", "statement": "From any state other than (0, 0), Xoroshiro128PlusRejection and the SplitMix variant come back to the starting state after k calls of next exactly when 2^128 - 1 divides k, and every other non-zero state is reached.", "quantifier": "every non-zero 128-bit state, every k, both execution modes", "why_tests_cant": "The cycle has 2^128 - 1 states; one changed shift or rotation constant gives shorter cycles that no run can see.", "anchors": ["numba_pokemon_prngs/xorshift/xoroshiro128plus.py:Xoroshiro128PlusRejection.next"]}
{"id": "C82", "title": "Xoroshiro rejection sampling terminates and is onto", "statement": "next_rand(maximum) of the rejection variant returns from every state (including zero) exactly when maximum is not 0, and from every non-zero state every value below maximum is returned at some time.", "quantifier": "every state, every 32-bit maximum, every value below it", "why_tests_cant": "Termination of an unbounded loop; the worst case needs astronomically long rejection runs to be excluded.", "anchors": ["numba_pokemon_prngs/xorshift/xoroshiro128plus.py:Xoroshiro128PlusRejection.next_rand"]}
{"id": "C83", "title": "Xorshift128 has the full period", "statement": "From any state other than zero, Xorshift128 comes back to the starting state after k calls of next exactly when 2^128 - 1 divides k, every other non-zero state is reached, and any four words not all zero occur as four consecutive outputs.", "quantifier": "every non-zero 128-bit state, every k, both execution modes", "why_tests_cant": "The cycle has 2^128 - 1 states.", "anchors": ["numba_pokemon_prngs/xorshift/xorshift128.py:Xorshift128.next"]}
{"id": "C84", "title": "TinyMT has the full period for every seed", "statement": "For every seed TinyMersenneTwister comes back to its initial state after k calls exactly when 2^127 - 1 divides k; all non-zero 127-bit states lie on one cycle.", "quantifier": "every 32-bit seed, every k, both execution modes", "why_tests_cant": "The cycle has 2^127 - 1 states; that no seed falls on the zero state or a short cycle cannot be sampled.", "anchors": ["numba_pokemon_prngs/mersenne_twister/tinymt.py:TinyMersenneTwister.shuffle", "numba_pokemon_prngs/mersenne_twister/tinymt.py:TinyMersenneTwister.re_init"]}
{"id": "C85", "title": "Splitmix Xoroshiro next_rand", "statement": "next_rand(maximum) of SplitMixXoroshiro128Plus makes exactly one step and returns the 32-bit draw modulo maximum, below maximum; for every seed every value below maximum is returned at some time; next_rand(0) raises under numba and returns 0 with numpy scalars.", "quantifier": "every seed, state, maximum, value below it, both execution modes", "why_tests_cant": "All 2^32 maxima times 2^128 states.", "anchors": ["numba_pokemon_prngs/xorshift/xoroshiro128plus.py:SplitMixXoroshiro128Plus.next_rand"]}
{"id": "C86", "title": "Cleaned map names", "statement": "clean_map_string gives a name made of words without white space or underscores separated by single blanks; cleaning a cleaned name changes nothing; the name contains every letter and digit of the map string (without the MAP_ prefix) in order, up to case.", "quantifier": "every ASCII map string", "why_tests_cant": "Unbounded strings; the shipped data never has text after a route or room number, the case in which the last part fails.", "anchors": ["numba_pokemon_prngs/data/encounter/__init__.py:clean_map_string"]}
{"id": "C87", "title": "Nazo addresses fit their console", "statement": "For every version, language and console the main address in the nazo table lies in the memory area of the console it is listed for (DS entries in the DS area, DSi entries in the higher DSi area).", "quantifier": "every version, language and console type", "why_tests_cant": "The tests cover two or three entries of the table; a copied entry of another console gives well-formed but wrong hashes.", "anchors": ["numba_pokemon_prngs/sha1.py:get_nazo"]}
{"id": "C88", "title": "Cute Charm in Emerald", "statement": "With a Cute Charm lead in Emerald, an encounter with a species that has both genders gets the gender opposite to the lead's whenever the roll in 0..2 after slot and level is not 0, and species with one gender or none are not affected.", "quantifier": "every table, area, seed, method and lead with Cute Charm", "why_tests_cant": "The tests use no Cute Charm lead; the condition is inverted, which no test of plausible output notices because the genders still look random.", "anchors": ["numba_pokemon_prngs/gen3/wild_generator_3.py:WildGenerator3.generate", "numba_pokemon_prngs/gen3/wild_generator_3.py:WildGenerator3.cute_charm_check"]}
{"id": "C89", "title": "Different seeds give different streams", "statement": "Two MersenneTwister objects with different seeds differ within their first 624 outputs, two SIMDFastMersenneTwister objects within their first 312; two TinyMersenneTwister objects with different seeds never have the same effective state, and no seed needs the all-zero certification.", "quantifier": "every pair of 32-bit seeds, any uninitialised memory, both execution modes", "why_tests_cant": "2^63 pairs of seeds.", "anchors": ["numba_pokemon_prngs/mersenne_twister/mt.py:MersenneTwister.re_init", "numba_pokemon_prngs/mersenne_twister/sfmt.py:SIMDFastMersenneTwister.re_init", "numba_pokemon_prngs/mersenne_twister/tinymt.py:TinyMersenneTwister.re_init"]}
{"id": "C90", "title": "Species names are found", "statement": "The constant-case forms of the 1011 lines of the English species list are pairwise different, so CONSTANT_CASE_SPECIES_EN.index(name) is i exactly for the name of line i, and raises ValueError for every other string.", "quantifier": "every string; the whole shipped list", "why_tests_cant": "No test looks up every name; two names with the same form would make the second silently resolve to the first.", "anchors": ["numba_pokemon_prngs/data/__init__.py", "numba_pokemon_prngs/resources/txt/species_en.txt"]}
{"id": "C91", "title": "The shipped Gen 3 encounters load", "statement": "load_encounter_3 succeeds for each of the five Gen 3 games, with 97, 97, 124, 132 and 132 areas. Every slot of every list is either zero (a list the area lacks) or has levels with 1 <= min <= max <= 100 and a species from 1 to 386; only Unown have a form, below 28.", "quantifier": "every game, area, encounter type and slot", "why_tests_cant": "The tests load no file; one misspelt species in one of the JSON files makes the whole load fail.", "anchors": ["numba_pokemon_prngs/data/encounter/__init__.py:load_encounter_3", "numba_pokemon_prngs/resources/encount"]}
{"id": "C92", "title": "Which calls return on the shipped Gen 3 data", "statement": "With the shipped encounters and personal tables, generate returns a list for every game, area, method, encounter type, lead, trainer ids, seed and range that starts before advance 2^32 (delay included; later starts raise IndexError), except in Emerald with CUTE_CHARM_M where the area has no list for the encounter type (other than rock smash) or for the grass of Route 117; for each of those exceptions the call for seed 30 and one advance never returns.", "quantifier": "every game, area, method, encounter type, lead, ids, 32-bit seed, delay and number of advances", "why_tests_cant": "Non-termination cannot be observed by a test, and 2^32 seeds times all settings cannot be run.", "anchors": ["numba_pokemon_prngs/gen3/wild_generator_3.py:WildGenerator3.generate", "numba_pokemon_prngs/data/encounter/__init__.py:load_encounter_3"]}
{"id": "C93", "title": "Safari Zone numbers", "statement": "On the shipped data is_rse_safari_zone is true exactly for the areas of Ruby, Sapphire and Emerald whose map name contains SAFARI_ZONE, and false for every area of FireRed and LeafGreen.", "quantifier": "every area of the five games", "why_tests_cant": "The numbers are hard coded and refer to positions in the JSON files; a shifted number moves the RNG in one area only.", "anchors": ["numba_pokemon_prngs/gen3/encounter_area_3.py:is_rse_safari_zone", "numba_pokemon_prngs/resources/encount"]}
{"id": "C94", "title": "Map names are unambiguous", "statement": "For each Gen 3 game the name returned for an area is empty exactly if the area is one of the skipped ones (Altering Cave variants, unused), and each non-empty name occurs once.", "quantifier": "every pair of areas of the five games", "why_tests_cant": "No test loads the names.", "anchors": ["numba_pokemon_prngs/data/encounter/__init__.py:load_encounter_3", "numba_pokemon_prngs/data/encounter/__init__.py:clean_map_string"]}
{"id": "C95", "title": "The hashed message is determined by the last settings", "statement": "Construct a SHA-1 generator and call its methods in any order, each of set_button, set_timer0 (16-bit timer), set_date and set_time at least once. The 52-byte message that is hashed consists of the five nazo values, Timer0 and VCount, the MAC address with VFrame and GxStat, the date with its weekday, the time in decimal digits (with the afternoon bit on a DS that is not a 3DS), and the buttons, each taken from the last call that was accepted; the seed is taken from the SHA-1 of these bytes.", "quantifier": "every game setting, every sequence of setter calls", "why_tests_cant": "The order and history of setter calls is unbounded.", "anchors": ["numba_pokemon_prngs/sha1.py:SHA1"]}
{"id": "C96", "title": "Printing Gen 3 states", "statement": "A Gen 3 state can be printed exactly if its species, nature, ability index, Hidden Power type and gender are in the ranges of the name tables. Every state a search on the shipped data returns can be printed. The printed line determines every printed value: two states with the same line have the same advance, species, form, level, PID, nature, ability name and slot, IVs, stats, Hidden Power and gender.", "quantifier": "every state; every search on the shipped data", "why_tests_cant": "Pairs of states with ambiguous text cannot be searched for.", "anchors": ["numba_pokemon_prngs/gen3/state.py:csv", "numba_pokemon_prngs/gen3/state.py:__str__"]}
{"id": "C97", "title": "Unown letters", "statement": "In FireRed and LeafGreen the first seven areas are the Tanoby chambers with twelve Unown each, in the letters of the games; every one of the 28 letters is in exactly one area; no other area, list or game has Unown. A search that returns an Unown was made in a chamber and its form is a letter of that chamber.", "quantifier": "every area of the five games, every search", "why_tests_cant": "No test covers the form table; a wrong number affects one slot of one chamber.", "anchors": ["numba_pokemon_prngs/data/encounter/__init__.py:UNOWN_ENCOUNTERS", "numba_pokemon_prngs/data/encounter/__init__.py:load_encounter_3"]}
{"id": "C98", "title": "Exact frequencies in Gen 3", "statement": "For every trainer, of the 2^32 PIDs exactly 2^16 are square shiny and 7*2^16 star shiny (1 in 8192 shiny). Each of the first 21 natures occurs in 171798692 PIDs, each of the last four in one less. Each of the Unown letters A to D occurs in 10*2^24 PIDs, each other form in 9*2^24. A draw below m from all 2^32 seeds gives each value v exactly 2^16*(65536/m) times, and 2^16 more if v is below 65536 mod m. The slot choice gives each encounter slot its share of the percentages with exactly this bias.", "quantifier": "every trainer, form, maximum, area and encounter type; counts over all 2^32 PIDs or seeds", "why_tests_cant": "Counts over 2^32 values for every parameter.", "anchors": ["numba_pokemon_prngs/gen3/util.py:get_shiny", "numba_pokemon_prngs/gen3/util.py:unown_check", "numba_pokemon_prngs/gen3/state.py:GeneratorState", "numba_pokemon_prngs/gen3/encounter_area_3.py:calculate_hslot", "numba_pokemon_prngs/lcrng/__init__.py"]}
{"id": "C99", "title": "Period of the Mersenne Twister", "statement": "For every seed, the outputs of MersenneTwister(seed).next repeat after exactly 2^19937 - 1 calls, from the first call on, and every period of the stream (also of a tail of it) is a multiple of 2^19937 - 1, which is a prime number.", "quantifier": "every seed, every content of the uninitialised array, every position and candidate period", "why_tests_cant": "The period is a number of 6002 digits.", "anchors": ["numba_pokemon_prngs/mersenne_twister/mt.py:MersenneTwister.next", "numba_pokemon_prngs/mersenne_twister/mt.py:MersenneTwister.shuffle", "numba_pokemon_prngs/mersenne_twister/mt.py:MersenneTwister.re_init"]}
{"id": "C100", "title": "Equidistribution of the Mersenne Twister in 623 dimensions", "statement": "For every seed, among any 2^19937 - 1 consecutive positions of the output stream every tuple of 623 consecutive 32-bit outputs occurs exactly twice, except the tuple of zeros, which occurs exactly once. Hence every sequence of up to 623 outputs is reached from every seed, and positions less than a period apart have different futures.", "quantifier": "every seed, start and tuple of 623 words", "why_tests_cant": "It counts occurrences among 2^19937 positions.", "anchors": ["numba_pokemon_prngs/mersenne_twister/mt.py:MersenneTwister.next", "numba_pokemon_prngs/mersenne_twister/mt.py:MersenneTwister.shuffle"]}
{"id": "C101", "title": "Period of the SIMD-oriented fast Mersenne Twister", "statement": "For every seed, the stream of 64-bit outputs of SIMDFastMersenneTwister(seed).next is periodic from the first call on, with a period of at most 2^19969, and every period of the stream (also of a tail of it) is a multiple of the prime 2^19937 - 1: the certification step of re_init leaves no seed with a shorter cycle.", "quantifier": "every seed, every content of the uninitialised array, every position and candidate period", "why_tests_cant": "The period is a number of at least 6002 digits.", "anchors": ["numba_pokemon_prngs/mersenne_twister/sfmt.py:SIMDFastMersenneTwister.next", "numba_pokemon_prngs/mersenne_twister/sfmt.py:SIMDFastMersenneTwister.shuffle", "numba_pokemon_prngs/mersenne_twister/sfmt.py:SIMDFastMersenneTwister.re_init"]}
{"id": "C102", "title": "Exact output frequencies over a period", "statement": "Over one full period, from any admissible state and starting position: each quadruple of consecutive Xorshift128 words occurs exactly once, except four zeros, which never occur; each output value of Xorshift128, Xoroshiro128+ (both seedings) and of next_u16/next_u32 of the LCRNG classes occurs equally often (zero once less for the xorshift types); the draws that Xoroshiro's next_rand(maximum) accepts are uniform on 0..maximum-1 (zero once less); and next_rand(maximum) of the modulo, reciprocal division and multiplication-shift types returns each value the stated number of times: 2^32/maximum rounded down or up, per 2^96 (Xorshift128, splitmix) or 2^32 (BWRNG) positions, 2^16/maximum per 2^16 (modulo classes), and for reciprocal division the length of the interval [v*d, (v+1)*d) cut at 2^16, d = 65535/maximum + 1.", "quantifier": "every state (not all-zero where that is a fixed point), every seed for the splitmix type, start position, maximum and value; both modes", "why_tests_cant": "It counts occurrences among 2^32, 2^64 or 2^128 positions.", "anchors": ["numba_pokemon_prngs/xorshift/xorshift128.py:Xorshift128.next_rand", "numba_pokemon_prngs/xorshift/xoroshiro128plus.py:Xoroshiro128PlusRejection.next_rand", "numba_pokemon_prngs/lcrng/lcrng32.py:lcrng32_init", "numba_pokemon_prngs/lcrng/lcrng64.py:lcrng64_init"]}
{"id": "C103", "title": "States that share outputs", "statement": "Two consecutive next_u16 results of PokeRNG (forward or reversed) come from at most 3 of the 2^32 states, those of ARNG and XDRNG from at most 2, and two consecutive next_u32 results of BWRNG from at most 2 of the 2^64 states; the bounds are attained. Three consecutive results of any of these classes come from at most one state.", "quantifier": "every pair or triple of outputs, every class of the list, both directions", "why_tests_cant": "It excludes further preimages among 2^32 or 2^64 states for each of 2^32 to 2^96 output tuples.", "anchors": ["numba_pokemon_prngs/lcrng/__init__.py:PokeRNGMod", "numba_pokemon_prngs/lcrng/__init__.py:BWRNG", "numba_pokemon_prngs/lcrng/lcrng32.py:lcrng32_init", "numba_pokemon_prngs/lcrng/lcrng64.py:lcrng64_init"]}
{"id": "C104", "title": "The shipped Legends Arceus tables load", "statement": "From the shipped files load_encounter_tables_la builds the tables of all five areas without error: 360, 385, 349, 317 and 368 of them, with distinct ids within an area, at least one and at most 56 slots each, four time and nine weather multipliers per slot, and species, form, gender, levels, guaranteed IVs, alpha flag and base probability in their stated ranges.", "quantifier": "each of the five areas, every table, every slot (5336 slots); the files as they ship", "why_tests_cant": "The library's own tests never load these files (import of the module fails on a missing file).", "anchors": ["numba_pokemon_prngs/data/encounter/__init__.py:load_encounter_tables_la", "numba_pokemon_prngs/data/encounter/__init__.py:ENCOUNTER_INFORMATION_LA"]}
{"id": "C105", "title": "Level ranges of the shipped Legends Arceus slots", "statement": "No slot of the shipped tables has a minimum level above its maximum level. (False: every slot of one table of the Crimson Mirelands does.)", "quantifier": "each of the five areas, every table, every slot, after the alpha boost in 8-bit arithmetic", "why_tests_cant": "The library's own tests never load these files, and the table is one of 1779.", "anchors": ["numba_pokemon_prngs/data/encounter/__init__.py:load_encounter_tables_la", "numba_pokemon_prngs/data/encounter/__init__.py:ENCOUNTER_INFORMATION_LA"]}
{"id": "C106", "title": "calc_slot on the shipped tables is exact", "statement": "On every shipped table, at every time and weather and for every float32 rand in [0, 1), calc_slot under numba returns the slot whose interval of the exact weights contains rand times the exact total, in spite of its rounded sums, products and differences. (False where all weights are zero: there it returns the last slot, of weight zero, for every rand; 28 tables have such times or weathers, which are listed, and no others do.)", "quantifier": "1779 tables x 4 times x 9 weathers, every rand representable with 24 bits", "why_tests_cant": "It is about every float32 between 0 and 1 for 64044 lists of weights.", "anchors": ["numba_pokemon_prngs/data/encounter/encounter_area_la.py:EncounterAreaLA.calc_slot", "numba_pokemon_prngs/data/encounter/__init__.py:load_encounter_tables_la", "numba_pokemon_prngs/data/encounter/__init__.py:ENCOUNTER_INFORMATION_LA"]}
{"id": "C107", "title": "Shipped Legends Arceus spawners and outbreaks refer to existing tables", "statement": "From the shipped files the spawners of the five areas load (382, 472, 479, 337, 377), each found under its spawner id and under its group id, each with coordinates and spawn counts 1 <= min <= max <= 4. The encounter table id of a spawner is a table of its own area, or one of the area's outbreak lotteries, then is_mass_outbreak is set. The 166 outbreak groups and 7 lotteries load, each found under its hash; every common entry of a lottery is a group whose first and second waves all have tables in the area of the lottery, every rare entry is such a group or the hash of the empty string.", "quantifier": "each of the five areas, every spawner, lottery, entry, group and wave; the files as they ship", "why_tests_cant": "The library's own tests never load these files; the references go across twelve files.", "anchors": ["numba_pokemon_prngs/data/encounter/__init__.py:SPAWNER_INFORMATION_LA", "numba_pokemon_prngs/data/encounter/__init__.py:NHO_GROUP_TABLE_LA", "numba_pokemon_prngs/data/encounter/__init__.py:NHO_LOTTERY_TABLE_LA", "numba_pokemon_prngs/data/fbs/encounter_la.py:PlacementSpawner8aTable", "numba_pokemon_prngs/data/fbs/encounter_la.py:NewHugeOutbreakGroupLottery8a"]}
{"id": "C108", "title": "One bit per output determines the state", "statement": "For any 128 results of next_rand(2) of Xoroshiro128PlusRejection there is exactly one state that produces them, and unless they are all 0 they occur at exactly one position of the period. The same holds for any fixed bit of 128 consecutive next() results of Xorshift128. Any 127 lowest bits of consecutive TinyMersenneTwister outputs occur, and determine the 127 effective state bits. For MersenneTwister, any fixed bit of 19937 consecutive outputs determines all outputs from there on, and for every seed every pattern of 19937 such bits occurs exactly once per period of 2^19937 - 1, except all zeros, which never occurs.", "quantifier": "every bit pattern, every bit position (Xorshift128, MT), every state or seed, every starting position, both execution modes", "why_tests_cant": "It is a statement about all of 2^128 and 2^19937 states; it needs the characteristic polynomials.", "anchors": ["numba_pokemon_prngs/xorshift/xoroshiro128plus.py:Xoroshiro128PlusRejection.next_rand", "numba_pokemon_prngs/xorshift/xorshift128.py:Xorshift128.next", "numba_pokemon_prngs/mersenne_twister/tinymt.py:TinyMersenneTwister.next", "numba_pokemon_prngs/mersenne_twister/mt.py:MersenneTwister.next"]}
{"id": "C109", "title": "Outputs that determine the outputs that follow", "statement": "Two MersenneTwister objects in any states (index at most 624) that return the same 624 consecutive values return the same values ever after; 623 values are not enough: in every seed's stream the same 623 values, unless all zero, occur a second time within a period and are followed by different values. Two SIMDFastMersenneTwister objects that return the same 312 consecutive values, starting at positions of equal parity, return the same values ever after.", "quantifier": "every pair of states (MT), every pair of seeds and positions (SFMT), every later output", "why_tests_cant": "2^19968 states.", "anchors": ["numba_pokemon_prngs/mersenne_twister/mt.py:MersenneTwister.next", "numba_pokemon_prngs/mersenne_twister/mt.py:MersenneTwister.shuffle", "numba_pokemon_prngs/mersenne_twister/sfmt.py:SIMDFastMersenneTwister.next", "numba_pokemon_prngs/mersenne_twister/sfmt.py:SIMDFastMersenneTwister.shuffle"]}
{"id": "C110", "title": "Exact period of the SIMD-oriented fast Mersenne Twister", "statement": "For every seed there is a factor d among 1, 7, 8191, 7*8191, 32767 and 32767*8191 such that the stream of 64-bit outputs of SIMDFastMersenneTwister(seed).next repeats with period p, from any point on, exactly if p is a multiple of 2*(2^19937-1)*d; a period from any point on is a period from the start. Each of the six factors occurs (seeds 87607476, 111677947, 120659, 9733, 5749 and 0).", "quantifier": "every seed, every content of the uninitialised array, every candidate period and starting point", "why_tests_cant": "The period is a number of at least 6002 digits; it needs the minimal polynomial of the whole 19968-bit state.", "anchors": ["numba_pokemon_prngs/mersenne_twister/sfmt.py:SIMDFastMersenneTwister.next", "numba_pokemon_prngs/mersenne_twister/sfmt.py:SIMDFastMersenneTwister.shuffle", "numba_pokemon_prngs/mersenne_twister/sfmt.py:SIMDFastMersenneTwister.re_init"]}
{"id": "C111", "title": "Which single bits of the SFMT outputs determine the stream", "statement": "The outputs of SIMDFastMersenneTwister.next are in turn the lower and the upper halves of 128-bit words. Fix a half and a bit of it, not one of twelve places (lower half: bits 23, 26, 32, 49, 52, 55; upper half: bits 6, 7, 13, 40, 54, 56). Then 19968 such bits in a row determine all outputs: two objects in any states (even index at most 624, same half next) that agree in them agree in all outputs, and so do two moments of the streams of any two seeds; every pattern of 19968 bits occurs for some state. At the twelve places the claim is false: there are two states, one giving only zeros and one giving 14 numbers over and over, whose outputs agree at all twelve places for ever and differ in every output.", "quantifier": "every pair of states, every pair of seeds and moments, every half and bit, every bit pattern, every later output", "why_tests_cant": "2^19968 states; which places determine the stream follows from the factors of the characteristic polynomial of degree 19968.", "anchors": ["numba_pokemon_prngs/mersenne_twister/sfmt.py:SIMDFastMersenneTwister.next", "numba_pokemon_prngs/mersenne_twister/sfmt.py:SIMDFastMersenneTwister.shuffle", "numba_pokemon_prngs/mersenne_twister/sfmt.py:sfmt_shuffle"]}
{"id": "C112", "title": "Names of the Legends Arceus encounter tables", "statement": "Reading the shipped encounter_table_names.json as the library does succeeds. The dictionary has 11363 entries and maps the fnv1a_64 hash of every name of the list in the source comment to that name, and no other key to anything; no two names have the same hash. Of the encounter tables of the five areas 221, 253, 218, 189 and 238 have a name, the others raise KeyError.", "quantifier": "every key, every name, every shipped encounter table", "why_tests_cant": "no test reads the file; the statement that nothing else is a key is about all 2^64 hashes", "anchors": ["numba_pokemon_prngs/data/encounter/__init__.py:ENCOUNTER_TABLE_NAMES_LA", "numba_pokemon_prngs/fnv.py:fnv1a_64"]}
{"id": "C113", "title": "Low bits of the LCRNG states have short periods", "statement": "For every LCRNG class the low k bits of the state return exactly after the multiples of 2^k calls of next, and bit j of the states as a sequence has exactly the multiples of 2^(j+1) as periods. So bit i of the values of next_u16 repeats exactly after multiples of 2^(17+i) values, and bit i of the values of next_u32 after multiples of 2^(33+i). Two states agree in the low k bits after n calls exactly when they did before; from two seeds that differ only in the top bit all 16-bit values differ only in the top bit, and PIDs made of such values have the same shininess.", "quantifier": "every class with the shipped kind of constants, forward and reversed, every seed, every number of calls, every bit", "why_tests_cant": "2^32 and 2^64 states; a period is a statement about the whole stream", "anchors": ["numba_pokemon_prngs/lcrng/lcrng32.py:next_", "numba_pokemon_prngs/lcrng/lcrng64.py:next_", "numba_pokemon_prngs/lcrng/lcrng32.py:LCRNG32.next_u16", "numba_pokemon_prngs/lcrng/lcrng64.py:LCRNG64.next_u32", "numba_pokemon_prngs/gen3/util.py:get_shiny"]}
{"id": "C114", "title": "JSON round trip and the Gen 3 encounter files", "statement": "json.loads succeeds exactly on the texts of the JSON grammar (objects, arrays, natural numbers, strings without escapes, null, booleans, any white space between tokens, any nesting), with the value of the grammar; a repeated key keeps its place and gets the last value. In particular json.loads of the text json.dumps writes for such a value gives back the value. Each of the three shipped Gen 3 encounter files is byte by byte such a text, with 194, 124 and 264 entries; every list of an entry fills the array it is copied to (12, 5, 5 and 10 slots), has a rate from 1 to 255, levels from 1 to 100 with minimum at most maximum, and species the library knows.", "quantifier": "every text, every plain JSON value; every entry, list and slot of the shipped files", "why_tests_cant": "the round trip is about infinitely many values; no test looks at all entries of the files", "anchors": ["numba_pokemon_prngs/data/encounter/__init__.py:load_encounter_3", "numba_pokemon_prngs/resources/encount/gen3"]}
{"id": "C115", "title": "Sister versions share file and location numbers", "statement": "Ruby and Sapphire, and FireRed and LeafGreen, read the same encounter file, and every entry of it carries the label of exactly one of the two games. After loading, both games have the same list of location names, and at every location number the same kinds of encounters (a rate is zero in one game exactly when it is zero in the other).", "quantifier": "both pairs of games, every entry, every location number", "why_tests_cant": "tests look at single areas; the statement relates the two loaded tables at every place", "anchors": ["numba_pokemon_prngs/data/encounter/__init__.py:load_encounter_3"]}
{"id": "C116", "title": "Personal tables of generations 4 to 8 as shipped", "statement": "Each of the eleven shipped personal files of generations 4 to 8 that the library loads gives the number of records of the game's table. In every record the base stats are all zero or all nonzero, types, gender threshold and growth rate are ones that exist in the generation, and a record with stats has two egg groups, 1 to 28 forms and an experience yield; only record 0 has no stats, except in Sword/Shield and Legends Arceus. The records that species refer to as their further forms (form_stats_index + form - 1) are in the table, come after those of the species, belong to one form only, and (except in Sword/Shield) use up all the records there. In Brilliant Diamond/Shining Pearl and Legends Arceus the field species is the number of the species in all records, and in Legends Arceus form is the number of the form; in Sword/Shield the field species is something else. The table that Platinum is given has a single form of Rotom, Giratina and Shaymin.", "quantifier": "every record and every form of the eleven tables", "why_tests_cant": "no test reads the tables; the claims relate all records of a table with each other and depend on every offset of the record classes", "anchors": ["numba_pokemon_prngs/data/personal/__init__.py:load_personal", "numba_pokemon_prngs/data/personal/personal_info.py", "numba_pokemon_prngs/resources/bin/personal"]}
{"id": "C117", "title": "Legends Arceus encounters refer to existing species and forms", "statement": "Every slot of every encounter table of the five areas of Legends Arceus, as loaded, names a species and form for which the personal table of the game, as loaded, has a record: for form 0 the record with the number of the species, for another form the record form_stats_index + form - 1 with form below form_count. The fields species and form of this record are those of the slot, its base stats are nonzero, and if the slot fixes a gender then the gender threshold of the record admits both genders.", "quantifier": "every area, table and slot", "why_tests_cant": "relates two data files of different format through two loaders at all 5336 slots", "anchors": ["numba_pokemon_prngs/data/encounter/__init__.py:load_encounter_tables_la", "numba_pokemon_prngs/data/personal/__init__.py:load_personal", "numba_pokemon_prngs/resources/encount/la"]}
{"id": "C118", "title": "RNGList caches outputs of every type", "statement": "build_rnglist works for every unsigned state_type: the list can be made and get_value returns the generator's outputs as values of that type. (False under numba, where the field is declared as an array of uint32 whatever state_type is; proved: without numba it holds for every width, under numba exactly uint32 is accepted.)", "quantifier": "both modes, every width of state_type, every generator, every accepted size up to 65536, every history of calls", "why_tests_cant": "unbounded histories and generators; only tried with uint32", "anchors": ["numba_pokemon_prngs/rng_list.py:build_rnglist", "numba_pokemon_prngs/rng_list.py:SpecificRNGList"]}
{"id": "C119", "title": "optional_jitclass declares the fields it is given", "statement": "However optional_jitclass is used (bare, with empty parentheses, with a class and a spec, with a spec as positional or as keyword argument), without numba the class is returned unchanged and under numba the compiled class has exactly the fields of the spec and of the annotations, with their converted types. (False for the keyword form: the spec is dropped; the fields are characterised for every form.) numba is used exactly if it is installed and NPP_USE_NUMBA is unset or TRUE.", "quantifier": "every class, every spec, every form of use", "why_tests_cant": "the package uses two of the five forms", "anchors": ["numba_pokemon_prngs/compilation.py:optional_jitclass", "numba_pokemon_prngs/compilation.py:convert_spec", "numba_pokemon_prngs/compilation.py:convert_spec_cls", "numba_pokemon_prngs/compilation.py:convert_to_numba", "numba_pokemon_prngs/options.py:USE_NUMBA"]}
{"id": "C120", "title": "Nested array types are flattened", "statement": "With the patched constructors, nested arrays of nested arrays (to any depth) are one array of the innermost elements whose shape is the concatenation of the shapes from the outermost to the innermost, so that element addresses agree with those of the nested arrays; and array types over packed records are typed unaligned. (The last part is false for an Array of NestedArrays of packed records: it is typed as aligned.)", "quantifier": "every element type of whole bytes, every nesting depth, every shape, every index", "why_tests_cant": "unbounded depth and shapes", "anchors": ["numba_pokemon_prngs/patch.py:new_nestedarray_init", "numba_pokemon_prngs/patch.py:new_array_init", "numba_pokemon_prngs/patch.py:new_record_init"]}
{"id": "C121", "title": "Every shipped LCRNG class draws as documented", "statement": "next_rand of every shipped LCRNG class advances the class's own generator once (the reversed classes one step back) and returns the value of the distribution that the docstring and the README name for the class. (False for ARNG and ARNGR: documented with modulo distribution, they are built without one, and every call raises NotImplementedError and leaves the state unchanged; proved for the other eight classes.)", "quantifier": "every shipped class, every seed, every maximum of at least 2, both modes", "why_tests_cant": "2^32 and 2^64 seeds; the tests do not call next_rand of ARNG", "anchors": ["numba_pokemon_prngs/lcrng/__init__.py:ARNG", "numba_pokemon_prngs/lcrng/__init__.py:ARNGR", "numba_pokemon_prngs/lcrng/lcrng32.py:lcrng32_init", "numba_pokemon_prngs/lcrng/lcrng64.py:lcrng64_init"]}
{"id": "C122", "title": "What a call of shuffle is worth", "statement": "As documented, shuffle() of MersenneTwister and of SIMDFastMersenneTwister at the start of a block (index 0) is worth 624 advances: the calls of next after it return what they would return after 624 calls of next; from any other index it skips what is left of the block, and it does exactly what advance does for that number.", "quantifier": "every state of the 624 words and every index up to 624 (even ones for the SFMT), both execution modes", "why_tests_cant": "2^19968 states, all continuations of the stream", "anchors": ["numba_pokemon_prngs/mersenne_twister/mt.py:shuffle", "numba_pokemon_prngs/mersenne_twister/sfmt.py:shuffle"]}
{"id": "C123", "title": "TinyMT draws are balanced over a period, and how often the tempering sum overflows", "statement": "Among any 2^127 - 1 consecutive calls of next on a TinyMersenneTwister (one full period) the low 32 bits of the value returned take each value exactly 2^95 times, 0 once less; without numba next_rand and next_rand_mod return each value accordingly often. Under numba exactly 2^94*(2^24 - 1) of those calls (one in 512) return a value that does not fit in 32 bits, and for exactly as many next_rand(maximum) returns a value that is not below its maximum, whatever the maximum up to 2^31.", "quantifier": "every state whose 127 effective bits are not all zero (every seed gives one), every starting position, every set of values, every maximum", "why_tests_cant": "2^127 - 1 calls in a period", "anchors": ["numba_pokemon_prngs/mersenne_twister/tinymt.py:next", "numba_pokemon_prngs/mersenne_twister/tinymt.py:temper", "numba_pokemon_prngs/mersenne_twister/tinymt.py:next_rand", "numba_pokemon_prngs/mersenne_twister/tinymt.py:next_rand_mod"]}
{"id": "C124", "title": "Every module can be imported", "statement": "With a Python version that pyproject.toml allows (3.7 to 3.12), the dependencies it declares (numpy, flatbuffers; numba optional) and the resource files of the repository, importing any module of the package succeeds. (False: proved for the generators, SHA-1, enums, utilities and data; rng_list, data.util and data.fbs need typing_extensions, data.personal and gen3.state also Python 3.9, and data.encounter, gen3.encounter_area_3 and gen3.wild_generator_3 can never be imported, because spawner_names.json is not in the repository.) In general a module can be imported exactly if every module it needs directly or indirectly finds the distributions, files, language features and intact cache files its own statements need.", "quantifier": "every module, every declared environment (any other distribution present or absent, numba in use or not), every state of the cache directory", "why_tests_cant": "the tests run in one environment, with development dependencies installed, and do not import these modules", "anchors": ["numba_pokemon_prngs/data/encounter/__init__.py", "numba_pokemon_prngs/data/util.py", "numba_pokemon_prngs/rng_list.py", "numba_pokemon_prngs/data/personal/__init__.py", "numba_pokemon_prngs/gen3/wild_generator_3.py", "pyproject.toml"]}
{"id": "C125", "title": "Names and members of the enumerations", "statement": "For every IntEnum class body, lookup by name gives the member with the value the body assigns to the name, called by the first name with that value; lookup by value finds it again; other names and values raise. In the nine classes of the package two names are the same member only if the class says so (HUSTLE = PRESSURE). (False: Game.PLATINUM is the member DIAMOND; proved for all other pairs.) All classes but Game and Lead number their members 0, 1, ..., len-1, so members of LATime and LAWeather index the multiplier arrays; all values but those of Game fit np.uint8; a Lead is at most SYNCHRONIZE_QUIRKY exactly if its name begins with SYNCHRONIZE, and its value is the index of the nature it names.", "quantifier": "every class body; all names and pairs of names of all nine classes", "why_tests_cant": "names of enumeration members are not compared by any test", "anchors": ["numba_pokemon_prngs/enums/game.py:Game", "numba_pokemon_prngs/enums/lead.py:Lead", "numba_pokemon_prngs/data/encounter/encounter_area_la.py:22-23", "numba_pokemon_prngs/gen3/wild_generator_3.py:39-45,105-106"]}
{"id": "C126", "title": "Gen 3: PID and IVs against the state of the generator", "statement": "PID and IVs of every encounter a Gen 3 search returns are made of the outputs of one generator state reached from the seed after at least initial_advances + delay steps. For each method, PID and IVs together determine that state, so one seed gives the same PID and IVs again only after a multiple of 2^32 steps. A PID alone comes from at most three states, so over all seeds, areas, leads, games and trainers it is found with at most three sets of IVs; IVs alone come from at most six states (three and six are attained), so they are found with at most six PIDs. Some PIDs are never found at all.", "quantifier": "every well-formed area and personal table, every method, encounter, lead, game, trainer, seed, delay and range; every PID, every set of IVs", "why_tests_cant": "2^32 seeds times all ranges and areas; the statement is about pairs of searches", "anchors": ["numba_pokemon_prngs/gen3/wild_generator_3.py:generate", "numba_pokemon_prngs/lcrng/lcrng32.py:next", "numba_pokemon_prngs/lcrng/lcrng32.py:next_u16"]}
{"id": "C127", "title": "optional_njit does not change what a function computes", "statement": "However optional_njit is used (bare, with options, with a signature made by return_type), the decorated function returns or raises, with and without numba, what the function itself does on arguments of the declared types. (False for the bare form without numba: the result takes one argument and returns it, whatever the function is; the seven functions of the package decorated this way are lost: get_info_table_3 returns the game instead of a table, the six functions of encounter_area_3 raise TypeError. Proved for every other use.) Under numba a signature converts arguments and result and nothing else; every signature in the package has as many types as its function has parameters, and they are the annotated types or hold all members of the annotated enumeration, except index of compute_stat.", "quantifier": "every function, every form, every list of arguments, both modes; all 31 uses in the package", "why_tests_cant": "tests run in one mode and call a few functions", "anchors": ["numba_pokemon_prngs/compilation.py:optional_njit", "numba_pokemon_prngs/compilation.py:return_type", "numba_pokemon_prngs/data/personal/__init__.py:get_info_table_3", "numba_pokemon_prngs/gen3/encounter_area_3.py"]}
{"id": "C128", "title": "Which settings are hashed to the same message", "statement": "After any calls, two SHA-1 generators whose last accepted settings are complete (16-bit Timer0, hour of a day) hold the same message exactly if soft reset, buttons, Timer0, VCount, date and time agree, the nazo words agree, in the afternoon both or neither are a 3DS, the bytes 0, 1, 3 and 4 of the MAC addresses agree, and so do byte 5 xor VFrame and byte 2 xor GxStat. So on one console each setting shows in the message. For any other VFrame and GxStat there is exactly one 48-bit MAC address with the same message. The nazo words agree only for the same game and kind of console (DS or not), or for Black and White in Spanish or Korean, and, not on the DS, in German, Italian, Japanese, where Japanese and Korean games are not told apart either.", "quantifier": "all histories of calls, all settings, both modes", "why_tests_cant": "pairs of settings are too many to compare; tests look at single seeds", "anchors": ["numba_pokemon_prngs/sha1.py:SHA1", "numba_pokemon_prngs/sha1.py:get_nazo"]}
{"id": "C129", "title": "Shiny PIDs for every nature, gender and ability in Gen 3", "statement": "For every trainer, every lowest byte of a PID and every nature there is a shiny PID with these. So for every trainer and every species with at least 2 and at most 253 females in 256, each nature, gender and ability occur together in the state created (as the wild generator does) from a shiny PID. Square shiny PIDs alone do not suffice: for the trainer value 0xFF00 those with lowest byte 0 have only the natures divisible by 5.", "quantifier": "all trainers, species, natures, genders, abilities, both modes", "why_tests_cant": "a PID must be exhibited for each of the 2^16 trainers and every combination", "anchors": ["numba_pokemon_prngs/gen3/util.py:get_shiny", "numba_pokemon_prngs/gen3/util.py:get_gender", "numba_pokemon_prngs/gen3/state.py:GeneratorState"]}
{"id": "C130", "title": "LCRNG jumps of any integer distance", "statement": "For every LCRNG class and every integer n, negative ones included, jump(n) leaves the seed (n mod 2^w) steps further, which is where advance(n) leaves it; jump returns that seed if 0 <= n < 2^w and raises IndexError otherwise, after having moved the seed. const_jump(n) builds a function for 0 <= n < 2^w only. With an odd multiplier, as in every shipped class, a failed jump(-k) is an undo (k calls of next lead back), and any sequence of jumps whose exceptions are caught moves the seed by the sum of the distances modulo 2^w.", "quantifier": "every class constants, seed, integer distance and sequence of distances", "why_tests_cant": "unbounded distances and histories, and 2^32 (2^64) seeds", "anchors": ["numba_pokemon_prngs/lcrng/lcrng32.py:lcrng32_init.jump", "numba_pokemon_prngs/lcrng/lcrng64.py:lcrng64_init.jump", "numba_pokemon_prngs/lcrng/lcrng32.py:const_jump", "numba_pokemon_prngs/lcrng/lcrng32.py:LCRNG32.advance"]}
{"id": "C131", "title": "Going back in an RNGList", "statement": "For every RNGList of an accepted size (at most 65536 under numba), after any history of calls: advance(-n) undoes n calls of get_value exactly, for every n (also larger than the size), so the same values can be read again; distances of advance add up whatever their signs; reading as many values as the size, or advancing by the size, leaves the object as it was.", "quantifier": "every generator, size, history, distance, both modes", "why_tests_cant": "unbounded histories and distances", "anchors": ["numba_pokemon_prngs/rng_list.py:SpecificRNGList.advance", "numba_pokemon_prngs/rng_list.py:SpecificRNGList.get_value"]}
{"id": "C132", "title": "How often calc_slot returns each Legends Arceus slot", "statement": "For every table of the files that ship, at every time and weather at which some weight is not zero (and for every other table whose weights are multiples of a common power of two, at most 2^29 of them together): among the 2^24 values rand = k / 2^24, the number for which calc_slot returns a slot s is the sum over the places of s in the table of the differences of the cumulative shares of the weights, times 2^24, rounded up. So it differs from 2^24 times the share of s of the weights by at most the number of its places.", "quantifier": "every shipped table, time, weather and slot; every table of such weights", "why_tests_cant": "1779 tables times 36 times and weathers times 2^24 values of rand, in float arithmetic; and tables that do not ship", "anchors": ["numba_pokemon_prngs/data/encounter/encounter_area_la.py:EncounterAreaLA.calc_slot"]}
{"id": "C133", "title": "The text of the generators computes what the model says", "statement": "Read as syntax trees, as Python's parser reads them, and run by one set of rules for integer operations (the widths, signs and conversions of numba 0.59 and of numpy 1.26), the methods of the LCRNG classes, Xorshift128, Xoroshiro128PlusRejection, SplitMixXoroshiro128Plus, MersenneTwister, SIMDFastMersenneTwister, TinyMersenneTwister and of the classes made by build_rnglist (for every next_function, and every power of two up to 2^32 as size), and of SHA1 (when the module's constants have been defined; so from construction to hash_seed its text gives the seed of the standard SHA-1 of the message, C39 and C95), and the functions sfmt_shuffle, compute_nazo_bw, compute_nazo_bw2, get_nazo and those of fnv.py, util.py and gen3/util.py, return the values (or raise the errors) of the hand-written model functions and leave the objects in the model's states: on every state, for all arguments of the annotated types, compiled and not. (So the texts of mt.py and sfmt.py return the outputs of MT19937 and SFMT19937 for every history of next, advance and re_init, C14 and C22, and those of the lists the generator's outputs in the sliding window, C36; and the periods of C05, C81, C83, C84, C99 and C110 are those of the text of next.) The same holds in compiled code (the only way they run) of calculate_hslot, calculate_hslot_lead, calculate_level, is_rse_safari_zone, get_modified_slots and get_encounter_rate of gen3/encounter_area_3.py, and of __init__, cute_charm_check and generate of WildGenerator3: generate returns the model's list of states for every seed, area and range of advances, or raises the model's error (so on the shipped areas its text ends and raises nothing wherever C92 says so); of compute_stat, with the product of binary32 numbers; of get_info_table_3 for every game; of EncounterAreaLA.calc_slot for every table with finite multipliers (so on the shipped tables its text chooses by the exact weights, C106); and of GeneratorState.__init__ with update_stats: every attribute and both arrays are those of the model, for numbers of any integer type and whatever new arrays contain. The one exception is jump of LCRNG64 outside compiled code: with an np.uint64, its annotated type, it raises TypeError for every distance but 0.", "quantifier": "all methods and functions named; all states and arguments of the annotated types; both modes", "why_tests_cant": "tests compare outputs for a few seeds; intermediate widths matter only for particular values", "anchors": ["numba_pokemon_prngs/lcrng/lcrng32.py:lcrng32_init", "numba_pokemon_prngs/lcrng/lcrng64.py:lcrng64_init", "numba_pokemon_prngs/xorshift/xorshift128.py:Xorshift128", "numba_pokemon_prngs/xorshift/xoroshiro128plus.py:Xoroshiro128PlusRejection", "numba_pokemon_prngs/xorshift/xoroshiro128plus.py:SplitMixXoroshiro128Plus", "numba_pokemon_prngs/mersenne_twister/mt.py:MersenneTwister", "numba_pokemon_prngs/mersenne_twister/sfmt.py:SIMDFastMersenneTwister", "numba_pokemon_prngs/mersenne_twister/sfmt.py:sfmt_shuffle", "numba_pokemon_prngs/rng_list.py:build_rnglist", "numba_pokemon_prngs/mersenne_twister/tinymt.py:TinyMersenneTwister", "numba_pokemon_prngs/util.py:rotate_left_u64", "numba_pokemon_prngs/fnv.py:fnv1_64", "numba_pokemon_prngs/gen3/util.py:get_gender", "numba_pokemon_prngs/sha1.py:SHA1", "numba_pokemon_prngs/sha1.py:get_nazo", "numba_pokemon_prngs/gen3/encounter_area_3.py:calculate_hslot_lead", "numba_pokemon_prngs/gen3/encounter_area_3.py:calculate_level", "numba_pokemon_prngs/gen3/encounter_area_3.py:get_modified_slots", "numba_pokemon_prngs/gen3/wild_generator_3.py:WildGenerator3.generate", "numba_pokemon_prngs/gen3/wild_generator_3.py:WildGenerator3.cute_charm_check", "numba_pokemon_prngs/gen3/state.py:GeneratorState", "numba_pokemon_prngs/util.py:compute_stat", "numba_pokemon_prngs/data/encounter/encounter_area_la.py:EncounterAreaLA.calc_slot", "numba_pokemon_prngs/data/personal/__init__.py:get_info_table_3"]}
