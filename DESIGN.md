# Formal model of numba_pokemon_prngs (Lean 4)

Source: `/repo` (Lincoln-LM/numba_pokemon_prngs at the pinned commit), read as text; nothing of it was run.
Project: `/verif/lean`, `lake build`.

## Layout

* `Verif/Model/*.lean`  – model of the code, function by function; each definition cites file and lines.
* `Verif/Spec/*.lean`   – small independent specifications (textbook recurrences, standards), which do not import the
  model. Short specifications are stated in place, next to the theorem.
* `Verif/Lemmas/*.lean` – helper lemmas.
* `Verif/Props/*.lean`  – the property theorems, named `Cnn_...`, followed by `example`s showing that a concrete case
  meets their hypotheses.
* `Verif/Conform/*.lean` – executable conformance *tests* (`#guard`) comparing the model with the expected values of
  `/repo/tests`. They are tests of the model's faithfulness, not proofs.
* `Verif/Py/*.lean` – syntax trees of the Python text (`Source.lean`, written by `tools/gen_py.py`), rules that run them
  (`Semantics.lean`), and proofs that they compute what the model says (C133).
* `Verif/Data/*.lean` – contents of resource files, written by `tools/gen_data3.py`, `gen_json3.py`, `gen_la.py`,
  `gen_names.py` and `gen_personal.py` (see "Data files"), and
  certificates for the periods of the Mersenne Twister and the SFMT, written by `tools/gen_mtpoly.py` and
  `tools/gen_sfmtpoly.py`, which write `Lemmas/MtChunks1`, `MtChunks2`, `SfmtChunks1` and `SfmtChunks2` too, and by
  `tools/gen_sfmtfull.py`. The certificates are not trusted: the kernel checks each of them.
* `seeded/LOG.jsonl` – mutation tests of the theorems: one line per deliberately wrong model (or, for C133, wrong program text).
* `AXIOMS.md` – the axioms each theorem of the manifest uses.
* `MANIFEST.json` – property → theorems, status, note.

## Trusted base

* Lean's kernel (4.33.0) and the three standard axioms `propext`, `Classical.choice`, `Quot.sound`: every theorem of
  MANIFEST.json uses a subset of these (`#print axioms`; AXIOMS.md lists them for each theorem, written by
  `tools/axioms.py`). No `sorry`, no own axioms, no
  `native_decide`, no `bv_decide`. Finite tables are checked with `decide +kernel`, i.e. by kernel reduction.
* The faithfulness of the hand-written model (`Verif/Model`), read against the cited lines. For the functions of C133 this is
  proved rather than trusted: there the trusted part is `tools/gen_py.py` (which prints the trees of Python's `ast` one to one),
  and the rules of `Verif/Py/Semantics.lean`. Simplifications of the rules: types are those of the values at run time (a
  variable that has types of different width where control flow joins keeps the one of its value; compiled operations widen
  to 64 bits first, so the value is the same); class decorators, default arguments and `__init__` (except those of `SHA1` and `WildGenerator3`) are not read; constants of
  an enclosing scope (`mult`, `add`, `jump_table`, `size`) are parameters; a loop without a bound has fuel; a function passed
  in (the `next_function` of an RNGList) is given by its meaning (`Prog.given`). For sha1.py also: members of the enumerations
  are their numbers (`Source.enums`); `np.empty` gives a new array with arbitrary contents, `np.zeros` one of zeros, `a[:n] = b`
  copies (`Py/Sha1.lean`: `empty`, `zeros`, `setSlice`); `BWRNG(seed).next()` runs the tree of `LCRNG64.next`; the tuple `BCD`
  is written out; the arrays of lines 50-111 have their own names, and their definitions are run one at a time
  (`C133_sha1_constants`). For gen3/encounter_area_3.py (compiled code only): records are values with attributes that are only
  read; a generator passed as an argument is the entry of its name among the arrays, and its methods are the text of
  lcrng32.py; `const_rand(n)` is its inner function with `maximum = n`; `l.append(e)` is an assignment of the longer list to
  `l` (no other name refers to the list); `a < b < c` is `a < b and b < c`; the tables of lines 26-30 are those of the model; the
  variable `rand` of `calculate_level`, unsigned on one path and signed on another, is a `float64` in numba, which is exact for
  its values, and the theorem speaks of the number. For gen3/wild_generator_3.py (compiled code only) also: `PokeRNGMod(seed)`
  makes a new object with that seed and `rng.seed` reads it; `GeneratorState(...)` runs the text of `__init__` on a new
  object, and a state is a value with all its attributes (`Py/State3.lean`: `newState`, `objOf`); a level above 255 raises, as in
  the model. For gen3/state.py (compiled code only): the
  attributes of `self` are those of the new object; `a / b` converts both integers to doubles and rounds the quotient
  (`Py/State3.lean`: `trueDiv`), double addition rounds, and storing a double in a `uint8` takes its integer part;
  `a[:] = b` copies. For `compute_stat` and `next_float_randrange`, `np.float32(x)` is the nearest binary32, an `int64` or a double next to a `float32` makes the operation one of doubles, a product of binary32 numbers is the exact product rounded to 24 bits (ties to even), conversion to `uint16` truncates, and one outside the range is an error (as in the model); the table `NATURE_MODIFIERS` has the model's entries. For `EncounterAreaLA.calc_slot` (compiled code only): an array of records is a tuple of values with attributes, `a.f` and `a[:, i]` take a column, products of arrays are taken element by element (`uint32` or `float64` times `float32` is `float64`), `np.sum` adds in order, `enumerate` gives pairs, and `for i, p in e` assigns each pair to the two variables; infinite and NaN multipliers are left out. For `get_info_table_3` the tables of personal data are given. Compiled `sfmt_shuffle` is the IR function, not
  its text: the source-level theorems speak of the text, C19 of the IR.
* The behaviour of Python, numpy 1.26.4, numba 0.59.1 and flatbuffers 23.5.26 (the locked versions), as described below.

### Numbers

* Fixed-width unsigned arithmetic wraps modulo 2^w (`np.seterr(over="ignore")`); storing into a `uintN` field or array
  truncates. numba intermediates are 64-bit, mixed signed/unsigned ones int64; numpy-1.26 scalar results may be wider
  than their operands. Where `+ - * ^ & | <<` is followed by truncation before any `>>`, `//`, `%` or comparison,
  `BitVec 32`/`BitVec 64` is used directly, because these operations commute with truncation. Where they are not, the
  wider intermediate is modelled (e.g. TinyMT's temper sum, C18/C72).
* `Mode` (`Model/Basic`): `.numba` (compiled) or `.numpy` (`NPP_USE_NUMBA=FALSE`, plain Python on numpy scalars). The two
  differ in intermediate widths, in division by zero (numba raises `ZeroDivisionError`; numpy scalars give 0 and a
  warning) and in a few places in the types of intermediate results. Theorems are for both modes unless they name one.
* Shifts by the full width are undefined in LLVM: the model returns `none` (C43).
* Floats (`Model/Fp`): an operation is the exact rational operation followed by rounding to nearest-even with 24 or 53
  significant bits. The exponent range is unbounded (no overflow, subnormals, NaN, signed zero). Where only bit patterns
  matter (loader of Legends Arceus) floats are bit patterns.
* numba does not check array bounds; an access outside an array is modelled as `indexError`, and theorems show it does
  not happen where the claim says so.

### State, loops, errors

* Python exceptions are values (`PyErr`). Loops without a bound run with fuel (`Model/Res`, `outOfFuel`); termination
  theorems say for which inputs some fuel suffices, non-termination theorems that none does.
* `np.empty` arrays hold arbitrary contents: constructors take an arbitrary "junk" array as a parameter.
* Arrays of the Mersenne Twisters are total functions from indices; the in-range property is separate (C16).
* The pickle format is a pair of functions satisfying `Lawful` (`Model/Cache`): `loads (dumps x) = x`, a dump is not empty,
  and a non-empty proper prefix of a dump does not load. It is a hypothesis of the C63, C64 and C78 theorems.
* A file is a byte string; a crash leaves a prefix of the write.

### Not modelled

numba compilation itself (typing, LLVM code generation), except the hand-written SFMT IR, which is modelled instruction by
instruction; `optional_ir_function`; aliasing between Python objects; performance; printing outside gen3/state.py; JSON
texts with escapes, negative numbers or floats (no shipped file has any); what module bodies do on import, apart from C124. Resource files are parameters (arbitrary tables, arbitrary byte strings) except in
C90 to C94, C96, C97, C104 to C107, C112 and C114 to C117, see next section.

### Data files

C90 to C94, C97, C114, C115 and parts of C96 are about the shipped Gen 3 files. These translations are trusted:

* `tools/gen_data3.py` reads `resources/txt/*.txt`: the lines as character lists; `c!"..."` (`Data/Chars`) is notation for an
  explicit list of characters. The four Gen 3 personal files: (length, bytes as one hexadecimal number).
* `tools/gen_json3.py` writes the bytes of the three `*_wild_encounters.json` as base-256 numbers (`Data/Enc3Json`), in pieces
  that end where an entry ends. Nothing is parsed: the model parses the bytes (`Model/Json`, `Model/Enc3Json`).

`Data/Enc3` and `Data/Enc3Rest` have the contents of the JSON files in a form that is quicker to evaluate. They are not trusted:
the kernel checks that the bytes are the text of these contents (`Lemmas/Enc3Check`).

C104 to C107 are about the shipped Legends Arceus files. `tools/gen_la.py` writes each file as one number (its base-256 digits,
in pieces of 2048 bytes); `ShippedLa.bytesOf` undoes it. Nothing is parsed by the script, except the
ids of the tables (`Data/LaIds`), which the kernel compares with those of the modelled loader. `tools/gen_names.py` does the
same for `encounter_table_names.json` (C112, `Data/LaNames`), `tools/gen_personal.py` for the personal files of generations 4 to 8
(C116, C117), cut into pieces of the record size. `Data/LaKnown` is not trusted.

## Findings: claims that are false of the code

Each has a theorem `..._full_false` (or a named counterexample) and a `_partial` theorem or an exact characterisation.

| id | what happens |
|----|--------------|
| C07 | `next_rand(1)` with the reciprocal distribution: 65536 wraps to divisor 0, `ZeroDivisionError` under numba |
| C11 | `mod_inv` rejects some negative values that have an inverse (note) |
| C15 | `advance(2^32-1)` etc.: numpy scalar addition wraps, numba's does not; without numba the generator ends 2^32 words short (so that a negative distance rewinds it within the block) |
| C18, C72 | TinyMT under numba: the temper sum keeps bit 32 (seed 775, `next_rand(100)` = 107); in a full period one call in 512 does (C123) |
| C29 | `next_float_randrange`: a zero draw returns the excluded maximum; (3, 3.5) can give a value below 3 |
| C37 | RNGList sizes above 65536: the uint16 cursor wraps under numba |
| C43 | 64-bit rotation by 0 or 64 shifts by the full width |
| C46 | nature table is ordered speed/sp.atk/sp.def but used as sp.atk/sp.def/speed |
| C51 | slot tables: each inner boundary is one too low |
| C55 | failed Rock Smash check `continue`s without `rng.next()` |
| C57 | Cute Charm (male) with an always-male species searches forever |
| C58 | grass returns the fishing rate, rods return the land rate |
| C63 | keyword call of a cached loader raises `IndexError`; braces in the cache directory break the file name |
| C64 | a cache file cut short makes every later call raise |
| C65 | Diamond and Platinum share the identifier `1 << 9`; the Platinum table is unreachable |
| C69 | `rand * total` is rounded and can select the next slot; without numba `calc_slot` always raises |
| C76 | without numba the hidden power strength is a fraction |
| C77 | without numba the bare `@optional_njit` decorator makes the Gen 3 generator raise `TypeError` |
| C78 | cache files are not versioned: a stale file wins over new data |
| C79 | `read_string` of an absent string with the default raises `AttributeError` |
| C86 | map names: text after a route or room number in the same word is dropped (`ROUTE101A`; no shipped map has this) |
| C87 | nazo table: Korean Black 2 on the DSi has a DS address (that of Korean White 2) |
| C92 | on the shipped Emerald data Cute Charm (male) loops on the grass of Route 117 (Volbeat) and on lists an area lacks |
| C105 | in one table of the Crimson Mirelands (`mas_no_02`) the minimum level of every slot exceeds the maximum by two |
| C106 | 28 Legends Arceus tables have times or weathers at which all weights are zero; `calc_slot` then returns the last slot |
| C116 | the field of Sword/Shield called `species` is not the number of the species; Platinum (C65) has one form of Rotom, Giratina, Shaymin |
| C118 | under numba an RNGList can only be made for `np.uint32`: the field is declared so whatever `state_type` is |
| C119 | `optional_jitclass(spec=...)` drops the spec |
| C120 | an `Array` of `NestedArray`s of packed records is typed as aligned: patch.py tests before it flattens |
| C121 | ARNG and ARNGR are documented with the modulo distribution, but `next_rand` raises `NotImplementedError` |
| C122 | `SIMDFastMersenneTwister.shuffle` is documented as 624 advances; it is worth 312 calls of `next` (or of `advance`) at the start of a block |
| C124 | `spawner_names.json` is missing, so `data.encounter` and the Gen 3 generator cannot be imported; `typing_extensions` and `platformdirs` are not declared; Python 3.7 and 3.8 are, but `data.personal` does not load there |
| C125 | `Game.PLATINUM` is an alias of `Game.DIAMOND` (both `1 << 9`): it prints as DIAMOND and is skipped when looping over the games |
| C127 | without numba and parentheses `optional_njit` replaces a function by one that returns its argument: `get_info_table_3(game)` returns `game`, the functions of encounter_area_3.py raise `TypeError` |
| C128 | Black and White share nazo words in Spanish and Korean (on DSi and 3DS also in German, Italian, Japanese), Japanese and Korean games on DSi and 3DS do as well: their seeds cannot be told apart |
| C130 | `jump` with a negative distance, or one of 2^w and more, raises `IndexError` only after it has moved the seed, and by the distance asked for |
| C133 | `LCRNG64.jump` outside compiled code: an `np.uint64` distance, the annotated type, raises `TypeError` (`np.uint64 & 1` has no integer type) unless it is 0 |
| C88 | Cute Charm: the gender condition is inverted; two-gender species are unaffected, one-gender species are |

Further observations not stated as claims: `get_info_table` raises `NotImplementedError` for HeartGold/SoulSilver;
`get_info_table_3` answers LeafGreen's table for every other game (C66 states this); alpha level index 0 would read the last boost.

## Properties: what is modelled and how it is proved

Statements are in properties.jsonl, theorem names in MANIFEST.json.

| id | model | proof |
|----|-------|-------|
| C01–C03 | `Model/Lcrng`: parametric in the width, jump table as a list, loops as recursion on the distance | affine-map composition, strong induction on the distance |
| C04 | reversed constants computed with the modelled `mod_inv` | inverse affine map; induction on n; instances for all shipped classes |
| C05 | same | Hull–Dobell for powers of two, by induction on the width |
| C06–C10 | distributions as functions on the 16/32-bit draw, division by zero as an error value | arithmetic |
| C11 | `Model/Compat`: extended gcd recursion on integers | Bézout invariant by recursion |
| C12 | all generator models | each `re_init` shown independent of the previous state |
| C13, C14, C16 | `Model/Mt`: memory as total function on indices, in-place loops | loop invariant relating the array to the infinite MT19937 sequence; refinement state -> stream position |
| C15 | numba and numpy variants of `advance` | negation by a concrete distance; exact places reached in both modes, agreement characterised with the periods (C99, C101) |
| C17 | temper | explicit inverse |
| C18 | bounded draws | arithmetic |
| C19 | IR version modelled on bytes (shuffle vectors) and lanes | per-step equality, loop induction |
| C20–C23 | `Model/Sfmt` | as for MT, 128-bit recurrence as spec |
| C24–C26, C72 | `Model/TinyMt` versus the TinyMT32 reference (`Spec/TinyMt`) | injectivity of the linear step, induction |
| C27–C29, C73, C74 | `Model/Xorshift128` | bit-level inverse; C29 false at the endpoint (negation, the intervals where it holds otherwise, error bounds) |
| C30–C35, C73, C75, C85 | `Model/Xoroshiro` | bit-level inverse; rejection loop as first index in the stream; divergence proved |
| C36, C37, C118 | `Model/RngList`, any width of outputs and list | refinement to (stream, base, cursor); C37 false for sizes > 65536 under numba; without numba, sizes above 2^32 are not modelled |
| C38–C41, C87 | `Model/Sha1` versus textbook SHA-1 on bytes (`Spec/Sha1`) | unrolled schedule equality, invariants over setter histories |
| C42–C44 | `Model/Util` | bit extensionality |
| C45, C46 | `Model/Stat` with binary32 arithmetic | kernel computation over the complete finite domain; C46 false (negation) |
| C47 | `Model/Util` (FNV) | induction on the string; bijective step |
| C48–C50 | `Model/Gen3Util` | arithmetic |
| C51–C54, C58 | `Model/Gen3Area` | case analysis; C51, C58 false |
| C55–C57, C59, C62, C77, C88 | `Model/WildGen3`, PID search with fuel / as "first index" | C55 false for RSE rock smash (negation + exact result); C62 stated from the loader of C71 to the states of C56 (`Props/PackedSlots`); termination via the LCG's full period, C57 false for Cute Charm on male-only species |
| C60, C61, C76 | `Model/State3` | finite computation + arithmetic |
| C63, C64, C78 | `Model/Cache` – files as byte strings, crash = prefix of the write | induction over histories |
| C65, C66 | `Model/Enums`, `Model/Personal` | finite computation |
| C67 | `Model/Personal`: generic little-endian record layout, all 14 layouts | list induction |
| C68, C79 | `Model/FlatBuffer` on byte lists | reader ⟺ independent description of the layout (`Spec/FlatBuffer`) |
| C69 | `Model/CalcSlotLa` with rounded arithmetic | error analysis, exactness for short significands |
| C70, C80 | `Model/EncLoadLa` | case analysis on bit patterns, list induction |
| C89 | `Model/Mt`, `Model/Sfmt`, `Model/TinyMt` | the recurrences solved backwards from the outputs to the second word, which determines the seed |
| C81–C84 | `Model/Xoroshiro`, `Model/Xorshift128`, `Model/TinyMt` | the step as a GF(2)-linear map: a polynomial annihilating it (checked on a basis by the kernel), inverses of `x^(N/p) - 1` for every prime `p` of `N = 2^128 - 1` (factored and checked) or `2^127 - 1` (prime), `Lemmas/Gf2`, `Lemmas/Primes` |
| C71 | `Model/EncLoad3` (`clean_map_string` a parameter) | list induction |
| C86 | `Model/MapName`: `clean_map_string` on ASCII character lists | induction on the string |
| C90 | `Model/Text`: constant-case names of the shipped list | distinctness by a linear-time check with a perfect hash, kernel computation |
| C95 | `Model/Sha1`: any history of setter calls | whole message, word by word |
| C96 | `Model/StateText`: `csv`, `__str__` | unique readability of the text; kernel checks of the name tables |
| C97 | `Model/Shipped3`, `UNOWN_ENCOUNTERS` | kernel checks of the packed data, lifted through C71, C56 |
| C98 | `Model/Gen3Util`, `State3`, `Gen3Area` | counts over all 32-bit numbers as sums (`Lemmas/Count`), split by halves or bytes |
| C99, C100 | `Model/Mt` | the word sequence as a module over GF(2)[x] (`Lemmas/MtSeq`): eliminating the 31 unused bits gives one polynomial of degree 19937 killing every bit sequence; `x^(2^19937) = x` modulo it by 19937 squarings of packed polynomials in the kernel (`Lemmas/MtPoly`, `MtChunks1`, `MtChunks2`, about 2 minutes; intermediate results in `Data/MtPoly`); `2^19937 - 1` is prime by the Lucas-Lehmer test (`Lemmas/Mersenne`). So the period is `2^19937 - 1`, and the windows of 19937 bits run through all nonzero values |
| C101 | `Model/Sfmt` | the bit checked by the period certification (`x_n` against the certification vector), as a sequence over GF(2), is killed by a polynomial `phi` of degree 19937: the kernel divides `phi` times the vector by the matrix of the recursion (`certificate` in `Lemmas/SfmtDefs`, about 6 s) and `Lemmas/SfmtSeq` turns the quotient into the recursion for the sequence. `x^(2^19937) = x` modulo `phi` as for C99 (`SfmtChunks1`, `SfmtChunks2`, about 2 minutes); `phi` is not divisible by `x` or `x + 1`. The sequence starts with 1, so it has exactly the prime period `2^19937 - 1` from word 1 on, and every period of the outputs is a multiple of that |
| C102 | `Model/Xorshift128`, `Model/Xoroshiro`, `Model/Lcrng` | the period theorems (C05, C81, C83) turn positions of a period into states (`count_cycle` in `Lemmas/Cycle`), and the states with a given output are counted directly (fibres of a bijection of the state space, then residues, intervals and quotients) |
| C103 | `Model/Lcrng` | two states with the same two outputs differ by less than `2^16` (`2^32`) and so do their successors; for each multiplier that leaves two differences `d1`, `d2`, found by integer linear arithmetic, hence at most three states; the difference of the successors is then never again `0`, `±d1`, `±d2`, so a third output separates them. Reversed classes: the same states read backwards (C04) |
| C104, C105 | `Model/ShippedLa`: the modelled loader (C67, C68) on the shipped files | a second parser on the file as one number (`Lemmas/LaFast`, `LaLoad`), proved to agree with the format specification, is evaluated by the kernel (`decide +kernel` in `Lemmas/LaArea1` to `LaArea5`) together with the range checks of `Lemmas/LaCheck` |
| C106 | `Model/CalcSlotLa` on these tables | the weights are integers times a power of two below `2^53`, so products and sums are exact; the one rounding, of `rand * total`, cannot cross a prefix sum: by parity below `2^29`, else by a checked gap (`Lemmas/ChooseExact`) |
| C107 | `Model/ShippedLa`: spawners, outbreak groups and lotteries on the shipped files, dictionaries as last-wins lookups | the same second parser (`Lemmas/LaSpawner`), kernel checks in `Lemmas/LaSpawn1` to `LaSpawn5` |
| C108 | models of C27, C30, C24, C13 | an observed linear bit satisfies the recurrence of the characteristic polynomial (C81, C83, C84, C99); as many zeros as its degree force zeros for ever, but the one cycle contains a state that shows a 1; counting gives existence (`Lemmas/Observe`) |
| C109 | models of C13, C20; `Determined.mtWords`: the words any memory develops into | the recurrences, tempering being injective; C100 for the second occurrence of 623 outputs |
| C110 | `Model/Sfmt` | the bits of a run form a module over GF(2)[x], x being the shift by one word. A polynomial of degree 19968, `phi` times factors of degree 3, 13 and 15 (orders 7, 8191, 32767), kills the lowest bit of every run (certificate as for C101). A run whose lowest bits are 19967 zeros and a one (`start`; the kernel computes 20064 words and checks with a few operations on numbers of 2.5 million bits that they obey the recursion) generates all runs, by counting, so the polynomial kills everything. A run then splits into four parts, each zero or of full period (`Lemmas/SfmtParts`). Odd periods of the 64-bit outputs would exchange the halves of the words and force all lowest bits to zero. For the six seeds the kernel computes the run and its parts (`Lemmas/SfmtSeeds`, about 1 minute) |
| C111 | `Model/Sfmt`; `ObserveSfmt.words`: the words any memory develops into | the four factors of C110 are irreducible (order of a root against the size of the field, `Lemmas/SfmtIrreducible`). A polynomial that kills bit `j` of the generating run is divisible by each factor whose part shows in that bit; one kernel evaluation of that run shows all four parts in all bits but twelve, where the part of degree 3 is missing (`Lemmas/SfmtWords`). The counterexample is that part: seven words that repeat |
| C112 | `Model/TableNames`: `json.loads` for objects whose keys and values are strings without escapes, dicts as lists in order, `int` of decimal strings; the bytes of the file in `Data/LaNames` | the parser reads back what `json.dump` writes for any list of plain names; one kernel evaluation compares the file with that text for the names of the comment and their hashes, computed there; distinct hashes by splitting along the bits |
| C113 | `Model/Lcrng` | the low `k` bits are a generator of width `k` with the same kind of constants, so C05's period theorem applies at width `k`; bit `j` flips after `2^j` steps |
| C114 | `Model/Json` (scanner of `json` for texts without escapes, negative numbers and floats), `Model/Enc3Json` (the loader up to the records), the bytes of the files in `Data/Enc3Json` | both directions of the grammar by induction over the fuel and over the levels (`Lemmas/JsonGrammar`); dumps by induction over the value (`Lemmas/Json`). The kernel compares each file with the text of the value described by `Data/Enc3` and `Data/Enc3Rest` (`Lemmas/Enc3Check`, base-256 numbers instead of lists); so these two are certificates, not assumptions |
| C115 | `Model/Shipped3.load` | labels by evaluation; the areas through C90 and C91 |
| C91–C94 | `Model/Shipped3`: loader and generator on the shipped files | kernel checks of the packed data, lifted through C71, C57, C67 |
| C116 | `Model/ShippedPersonal` | a record is a number; the kernel evaluates a check of each table |
| C117 | `Model/ShippedLa.encounterTables`, `Model/ShippedPersonal.load` | one more test of every slot in the check behind C104, against a list of species and forms that is checked against the personal table |
| C119 | `Model/Compilation` | numba's own `jitclass` is part of the model, `from_dtype` and `as_numba_type` are parameters |
| C120 | `Model/Patch` | constructors as functions to the fields of the type |
| C121 | `Model/Lcrng` (`distOf`, `distOf64`) | from C04, C06 to C08 |
| C122 | `Model/Mt`, `Model/Sfmt` | the calls of `next` up to the end of the block; uniqueness from C101 |
| C123 | `Model/TinyMt` | one cycle (C84), the output as a bijection of the fourth word (bit by bit), Gauss sum of the carries |
| C124 | `Model/Imports`: import statements, resource files and language features of every module; Python's import with `sys.modules` | invariants of the depth-first import (closed set of modules), comparison with a run in which nothing is missing |
| C125 | `Model/EnumClass`: creation of `IntEnum` classes with aliases; the nine class bodies | invariant of class creation; kernel evaluation over all names |
| C126 | `Model/WildGen3`, `Model/Lcrng` | origin of each state from C55 and C56; differences of states with equal outputs as short vectors of a lattice (integer linear arithmetic, modulo `2^32` for the PID, `2^31` for the IVs); some PIDs are never found by counting |
| C127 | `Model/Njit`: `optional_njit`, `return_type`, numba's `njit` with conversions as parameters; table of all decorated functions | case analysis of forms and modes; kernel evaluation over the table |
| C128 | `Model/Sha1` | messages from C95; bytes and decimal digits are injective; all pairs of nazo tables compared by kernel evaluation |
| C129 | `Model/Gen3Util`, `Model/State3` | the PID is put together byte by byte; the residues modulo 25 that the free bits reach, by kernel evaluation for all 256 upper bytes of a trainer |
| C130 | `Model/LcrngInt` | induction over the loop with the remaining table length; the low bits of a two's complement integer from those of its half |
| C131 | `Model/RngList` | closed form of `n` reads; the size divides 2^32 |
| C132 | `Model/CalcSlotLa`, `Model/ShippedLa` | each index is returned on an interval of `k` (C69, C106); counting intervals |
| C133 | `Py/Source`, `Py/Semantics` | symbolic execution by `simp` with the rules; loops by induction with an invariant between world and model state. `Props/SourceReference`, `SourcePeriod`, `SourceTwisterPeriod`, `SourceSha1Seed`, `SourceShipped3` and `SourceLa` carry C05, C14, C22, C36, C39, C81, C83, C84, C92, C95, C99, C106 and C110 over to the text, by induction over histories of calls |
