import Verif.Py.Syntax
/-
Written by tools/gen_py.py: syntax trees of the functions of numba_pokemon_prngs named below, as Python's module `ast`
parses the files. Do not edit.
-/
namespace Verif.Py.Source

/-! ### fnv.py -/

/-- `fnv.py:9-16`
```
@optional_njit(return_type(np.uint64, (np.str_,)))
def fnv1_64(inp: str) -> np.uint64:
    """FNV164"""
    hash_ = np.uint64(0xCBF29CE484222645)
    for char in inp:
        hash_ *= np.uint64(0x00000100000001B3)
        hash_ ^= np.uint64(ord(char))
    return hash_
``` -/
def fnv1_64 : Fun where
  params := ["inp"]
  result := some u64
  body :=
    (.seq
     (.assign (.var "hash_") (.cast u64 (.num 0xCBF29CE484222645)))
    (.seq
     (.for "char" (.var "inp")
      (.seq
       (.aug .mul (.var "hash_") (.cast u64 (.num 0x100000001B3)))
      (.aug .xor (.var "hash_") (.cast u64 (.call "ord" (.cons (.var "char") .nil))))))
    (.ret (.var "hash_"))))

/-- `fnv.py:19-26`
```
@optional_njit(return_type(np.uint64, (np.str_,)))
def fnv1a_64(inp: str) -> np.uint64:
    """FNV1a64"""
    hash_ = np.uint64(0xCBF29CE484222645)
    for char in inp:
        hash_ ^= np.uint64(ord(char))
        hash_ *= np.uint64(0x00000100000001B3)
    return hash_
``` -/
def fnv1a_64 : Fun where
  params := ["inp"]
  result := some u64
  body :=
    (.seq
     (.assign (.var "hash_") (.cast u64 (.num 0xCBF29CE484222645)))
    (.seq
     (.for "char" (.var "inp")
      (.seq
       (.aug .xor (.var "hash_") (.cast u64 (.call "ord" (.cons (.var "char") .nil))))
      (.aug .mul (.var "hash_") (.cast u64 (.num 0x100000001B3)))))
    (.ret (.var "hash_"))))

/-! ### util.py -/

/-- `util.py:6-13`
```
@optional_njit(return_type(np.uint32, (np.uint32,)), locals={"val": np.uint32})
def change_endian_u32(val: np.uint32) -> np.uint32:
    """Swap endian bytes"""
    val = np.uint32(val)
    val = ((val << np.uint32(8)) & np.uint32(0xFF00FF00)) | (
        (val >> np.uint32(8)) & np.uint32(0xFF00FF)
    )
    return np.uint32((val << np.uint32(16)) | (val >> np.uint32(16)))
``` -/
def change_endian_u32 : Fun where
  params := ["val"]
  args := some [u32]
  result := some u32
  locals := [("val", u32)]
  body :=
    (.seq
     (.assign (.var "val") (.cast u32 (.var "val")))
    (.seq
     (.assign (.var "val") (.bin .or (.bin .and (.bin .shl (.var "val") (.cast u32 (.num 8))) (.cast u32 (.num 0xFF00FF00))) (.bin .and (.bin .shr (.var "val") (.cast u32 (.num 8))) (.cast u32 (.num 0xFF00FF)))))
    (.ret (.cast u32 (.bin .or (.bin .shl (.var "val") (.cast u32 (.num 0x10))) (.bin .shr (.var "val") (.cast u32 (.num 0x10))))))))

/-- `util.py:16-21`
```
@optional_njit(return_type(np.uint32, (np.uint32, np.uint8)), locals={"val": np.uint32})
def rotate_left_u32(val: np.uint32, count: np.uint8) -> np.uint32:
    """Rotate bits left by count"""
    val = np.uint32(val)
    count = np.uint8(count)
    return np.uint32((val << count) | (val >> (np.uint8(32) - count)))
``` -/
def rotate_left_u32 : Fun where
  params := ["val", "count"]
  args := some [u32, u8]
  result := some u32
  locals := [("val", u32)]
  body :=
    (.seq
     (.assign (.var "val") (.cast u32 (.var "val")))
    (.seq
     (.assign (.var "count") (.cast u8 (.var "count")))
    (.ret (.cast u32 (.bin .or (.bin .shl (.var "val") (.var "count")) (.bin .shr (.var "val") (.bin .sub (.cast u8 (.num 0x20)) (.var "count"))))))))

/-- `util.py:24-29`
```
@optional_njit(return_type(np.uint32, (np.uint32, np.uint8)), locals={"val": np.uint32})
def rotate_right_u32(val: np.uint32, count: np.uint8) -> np.uint32:
    """Rotate bits left by count"""
    val = np.uint32(val)
    count = np.uint8(count)
    return np.uint32((val << (np.uint8(32) - count)) | (val >> count))
``` -/
def rotate_right_u32 : Fun where
  params := ["val", "count"]
  args := some [u32, u8]
  result := some u32
  locals := [("val", u32)]
  body :=
    (.seq
     (.assign (.var "val") (.cast u32 (.var "val")))
    (.seq
     (.assign (.var "count") (.cast u8 (.var "count")))
    (.ret (.cast u32 (.bin .or (.bin .shl (.var "val") (.bin .sub (.cast u8 (.num 0x20)) (.var "count"))) (.bin .shr (.var "val") (.var "count")))))))

/-- `util.py:32-37`
```
@optional_njit(return_type(np.uint64, (np.uint64, np.uint8)), locals={"val": np.uint64})
def rotate_left_u64(val: np.uint64, count: np.uint8) -> np.uint64:
    """Rotate bits left by count"""
    val = np.uint64(val)
    count = np.uint8(count)
    return np.uint64((val << count) | (val >> (np.uint8(64) - count)))
``` -/
def rotate_left_u64 : Fun where
  params := ["val", "count"]
  args := some [u64, u8]
  result := some u64
  locals := [("val", u64)]
  body :=
    (.seq
     (.assign (.var "val") (.cast u64 (.var "val")))
    (.seq
     (.assign (.var "count") (.cast u8 (.var "count")))
    (.ret (.cast u64 (.bin .or (.bin .shl (.var "val") (.var "count")) (.bin .shr (.var "val") (.bin .sub (.cast u8 (.num 0x40)) (.var "count"))))))))

/-- `util.py:40-45`
```
@optional_njit(return_type(np.uint64, (np.uint64, np.uint8)), locals={"val": np.uint64})
def rotate_right_u64(val: np.uint64, count: np.uint8) -> np.uint64:
    """Rotate bits left by count"""
    val = np.uint64(val)
    count = np.uint8(count)
    return np.uint64((val << (np.uint8(64) - count)) | (val >> count))
``` -/
def rotate_right_u64 : Fun where
  params := ["val", "count"]
  args := some [u64, u8]
  result := some u64
  locals := [("val", u64)]
  body :=
    (.seq
     (.assign (.var "val") (.cast u64 (.var "val")))
    (.seq
     (.assign (.var "count") (.cast u8 (.var "count")))
    (.ret (.cast u64 (.bin .or (.bin .shl (.var "val") (.bin .sub (.cast u8 (.num 0x40)) (.var "count"))) (.bin .shr (.var "val") (.var "count")))))))

/-- `util.py:54-57`
```
@optional_njit(return_type(np.uint16, (np.uint16, np.uint8, np.uint8)))
def compute_stat(stat: np.uint16, nature: np.uint8, index: np.int8):
    """Compute stat after nature modifier"""
    return np.uint16(np.float32(stat) * NATURE_MODIFIERS[nature][index - 1])
``` -/
def compute_stat : Fun where
  params := ["stat", "nature", "index"]
  args := some [u16, u8, u8]
  result := some u16
  body :=
    (.ret (.cast u16 (.bin .mul (.call "np.float32" (.cons (.var "stat") .nil)) (.item (.item (.var "NATURE_MODIFIERS") (.var "nature")) (.bin .sub (.var "index") (.num 1))))))

/-! ### gen3/util.py -/

/-- `gen3/util.py:7-16`
```
@optional_njit(return_type(np.uint8, (np.uint32, np.uint8)))
def get_gender(pid: np.uint32, gender_ratio: np.uint8):
    """Get gender based on pid and gender ratio"""
    if gender_ratio == 255:
        return 2
    if gender_ratio == 254:
        return 1
    if gender_ratio == 0:
        return 0
    return (pid & 0xFF) < gender_ratio
``` -/
def get_gender : Fun where
  params := ["pid", "gender_ratio"]
  args := some [u32, u8]
  result := some u8
  body :=
    (.seq
     (.ite (.cmp .eq (.var "gender_ratio") (.num 0xFF))
      (.ret (.num 2))
      .pass)
    (.seq
     (.ite (.cmp .eq (.var "gender_ratio") (.num 0xFE))
      (.ret (.num 1))
      .pass)
    (.seq
     (.ite (.cmp .eq (.var "gender_ratio") (.num 0))
      (.ret (.num 0))
      .pass)
    (.ret (.cmp .lt (.bin .and (.var "pid") (.num 0xFF)) (.var "gender_ratio"))))))

/-- `gen3/util.py:19-27`
```
@optional_njit(return_type(np.uint8, (np.uint32, np.uint16)))
def get_shiny(pid: np.uint32, tsv: np.uint16):
    """Get shiny type based on pid and full tsv"""
    psv = (pid >> 16) ^ (pid & 0xFFFF)
    if tsv == psv:
        return 2
    if (tsv ^ psv) < 8:
        return 1
    return 0
``` -/
def get_shiny : Fun where
  params := ["pid", "tsv"]
  args := some [u32, u16]
  result := some u8
  body :=
    (.seq
     (.assign (.var "psv") (.bin .xor (.bin .shr (.var "pid") (.num 0x10)) (.bin .and (.var "pid") (.num 0xFFFF))))
    (.seq
     (.ite (.cmp .eq (.var "tsv") (.var "psv"))
      (.ret (.num 2))
      .pass)
    (.seq
     (.ite (.cmp .lt (.bin .xor (.var "tsv") (.var "psv")) (.num 8))
      (.ret (.num 1))
      .pass)
    (.ret (.num 0)))))

/-- `gen3/util.py:30-39`
```
@optional_njit(return_type(np.bool_, (np.uint32, np.uint8)))
def unown_check(pid: np.uint32, form: np.uint8):
    """Verify unown form"""
    letter = (
        ((pid & 0x3000000) >> 18)
        | ((pid & 0x30000) >> 12)
        | ((pid & 0x300) >> 6)
        | (pid & 0x3)
    ) % 0x1C
    return letter == form
``` -/
def unown_check : Fun where
  params := ["pid", "form"]
  args := some [u32, u8]
  body :=
    (.seq
     (.assign (.var "letter") (.bin .mod (.bin .or (.bin .or (.bin .or (.bin .shr (.bin .and (.var "pid") (.num 0x3000000)) (.num 0x12)) (.bin .shr (.bin .and (.var "pid") (.num 0x30000)) (.num 0xC))) (.bin .shr (.bin .and (.var "pid") (.num 0x300)) (.num 6))) (.bin .and (.var "pid") (.num 3))) (.num 0x1C)))
    (.ret (.cmp .eq (.var "letter") (.var "form"))))

/-! ### lcrng/lcrng32.py -/

/-- `lcrng/lcrng32.py:35-37`
```
    def re_init(self, seed: np.uint32) -> None:
        """Reinitialize without creating a new object"""
        self.seed = np.uint32(seed)
``` -/
def LCRNG32.re_init : Fun where
  params := ["seed"]
  body :=
    (.assign (.self "seed") (.cast u32 (.var "seed")))

/-- `lcrng/lcrng32.py:51-56`
```
    def advance(self, adv: np.uint32) -> np.uint32:
        """Advance the LCRNG sequence by adv"""
        adv = np.uint32(adv)
        for _ in range(adv):
            self.next()
        return np.uint32(self.seed)
``` -/
def LCRNG32.advance : Fun where
  params := ["adv"]
  body :=
    (.seq
     (.assign (.var "adv") (.cast u32 (.var "adv")))
    (.seq
     (.for "_" (.call "range" (.cons (.var "adv") .nil))
      (.expr (.meth "next" .nil)))
    (.ret (.cast u32 (.self "seed")))))

/-- `lcrng/lcrng32.py:58-60`
```
    def next_u16(self) -> np.uint16:
        """Generate and return the next 16-bit random uint"""
        return np.uint16(np.uint32(self.next()) >> np.uint32(16))
``` -/
def LCRNG32.next_u16 : Fun where
  params := []
  body :=
    (.ret (.cast u16 (.bin .shr (.cast u32 (.meth "next" .nil)) (.cast u32 (.num 0x10)))))

/-- `lcrng/lcrng32.py:110-114`
```
        def next_(self: LCRNG32) -> np.uint32:
            self.seed = np.uint32(
                np.uint32(self.seed) * np.uint32(mult) + np.uint32(add)
            )
            return np.uint32(self.seed)
``` -/
def LCRNG32.next : Fun where
  params := []
  body :=
    (.seq
     (.assign (.self "seed") (.cast u32 (.bin .add (.bin .mul (.cast u32 (.self "seed")) (.cast u32 (.var "mult"))) (.cast u32 (.var "add")))))
    (.ret (.cast u32 (.self "seed"))))

/-- `lcrng/lcrng32.py:116-126`
```
        def jump(self: LCRNG32, adv: np.uint32):
            i = 0
            while adv:
                if adv & 1:
                    add, mult = jump_table[i]
                    self.seed = np.uint32(
                        np.uint32(self.seed) * np.uint32(mult) + np.uint32(add)
                    )
                adv >>= 1
                i += 1
            return np.uint32(self.seed)
``` -/
def LCRNG32.jump : Fun where
  params := ["adv"]
  body :=
    (.seq
     (.assign (.var "i") (.num 0))
    (.seq
     (.while (.var "adv")
      (.seq
       (.ite (.bin .and (.var "adv") (.num 1))
        (.seq
         (.assign (.cons (.var "add") (.cons (.var "mult") .nil)) (.item (.var "jump_table") (.var "i")))
        (.assign (.self "seed") (.cast u32 (.bin .add (.bin .mul (.cast u32 (.self "seed")) (.cast u32 (.var "mult"))) (.cast u32 (.var "add"))))))
        .pass)
      (.seq
       (.aug .shr (.var "adv") (.num 1))
      (.aug .add (.var "i") (.num 1)))))
    (.ret (.cast u32 (.self "seed")))))

/-- `lcrng/lcrng32.py:151-152`
```
            def next_rand(self: LCRNG32, maximum: np.uint16) -> np.uint16:
                return np.uint16(self.next_u16()) % np.uint16(maximum)
``` -/
def LCRNG32.next_rand_modulo : Fun where
  params := ["maximum"]
  body :=
    (.ret (.bin .mod (.cast u16 (.meth "next_u16" .nil)) (.cast u16 (.var "maximum"))))

/-- `lcrng/lcrng32.py:165-168`
```
            def next_rand(self: LCRNG32, maximum: np.uint16) -> np.uint16:
                return np.uint16(self.next_u16()) // np.uint16(
                    (np.uint16(0xFFFF) // np.uint16(maximum)) + np.uint16(1)
                )
``` -/
def LCRNG32.next_rand_division : Fun where
  params := ["maximum"]
  body :=
    (.ret (.bin .floordiv (.cast u16 (.meth "next_u16" .nil)) (.cast u16 (.bin .add (.bin .floordiv (.cast u16 (.num 0xFFFF)) (.cast u16 (.var "maximum"))) (.cast u16 (.num 1))))))

/-- `lcrng/lcrng32.py:157-159`
```
                @optional_njit(**kwargs)
                def rand_func(self: LCRNG32) -> np.uint16:
                    return np.uint16(self.next_u16()) % np.uint16(maximum)
``` -/
def LCRNG32.rand_func_modulo : Fun where
  params := []
  body :=
    (.ret (.bin .mod (.cast u16 (.meth "next_u16" .nil)) (.cast u16 (.var "maximum"))))

/-! ### lcrng/lcrng64.py -/

/-- `lcrng/lcrng64.py:31-33`
```
    def re_init(self, seed: np.uint64) -> None:
        """Reinitialize without creating a new object"""
        self.seed = np.uint64(seed)
``` -/
def LCRNG64.re_init : Fun where
  params := ["seed"]
  body :=
    (.assign (.self "seed") (.cast u64 (.var "seed")))

/-- `lcrng/lcrng64.py:47-52`
```
    def advance(self, adv: np.uint64) -> np.uint64:
        """Advance the LCRNG sequence by adv"""
        adv = np.uint64(adv)
        for _ in range(adv):
            self.next()
        return np.uint64(self.seed)
``` -/
def LCRNG64.advance : Fun where
  params := ["adv"]
  body :=
    (.seq
     (.assign (.var "adv") (.cast u64 (.var "adv")))
    (.seq
     (.for "_" (.call "range" (.cons (.var "adv") .nil))
      (.expr (.meth "next" .nil)))
    (.ret (.cast u64 (.self "seed")))))

/-- `lcrng/lcrng64.py:54-56`
```
    def next_u32(self) -> np.uint32:
        """Generate and return the next 32-bit random uint"""
        return np.uint32(np.uint64(self.next()) >> np.uint64(32))
``` -/
def LCRNG64.next_u32 : Fun where
  params := []
  body :=
    (.ret (.cast u32 (.bin .shr (.cast u64 (.meth "next" .nil)) (.cast u64 (.num 0x20)))))

/-- `lcrng/lcrng64.py:106-110`
```
        def next_(self: LCRNG64) -> np.uint32:
            self.seed = np.uint64(
                np.uint64(self.seed) * np.uint64(mult) + np.uint64(add)
            )
            return np.uint64(self.seed)
``` -/
def LCRNG64.next : Fun where
  params := []
  body :=
    (.seq
     (.assign (.self "seed") (.cast u64 (.bin .add (.bin .mul (.cast u64 (.self "seed")) (.cast u64 (.var "mult"))) (.cast u64 (.var "add")))))
    (.ret (.cast u64 (.self "seed"))))

/-- `lcrng/lcrng64.py:112-122`
```
        def jump(self: LCRNG64, adv: np.uint64):
            i = 0
            while adv:
                if adv & 1:
                    add, mult = jump_table[i]
                    self.seed = np.uint64(
                        np.uint64(self.seed) * np.uint64(mult) + np.uint64(add)
                    )
                adv >>= 1
                i += 1
            return np.uint64(self.seed)
``` -/
def LCRNG64.jump : Fun where
  params := ["adv"]
  body :=
    (.seq
     (.assign (.var "i") (.num 0))
    (.seq
     (.while (.var "adv")
      (.seq
       (.ite (.bin .and (.var "adv") (.num 1))
        (.seq
         (.assign (.cons (.var "add") (.cons (.var "mult") .nil)) (.item (.var "jump_table") (.var "i")))
        (.assign (.self "seed") (.cast u64 (.bin .add (.bin .mul (.cast u64 (.self "seed")) (.cast u64 (.var "mult"))) (.cast u64 (.var "add"))))))
        .pass)
      (.seq
       (.aug .shr (.var "adv") (.num 1))
      (.aug .add (.var "i") (.num 1)))))
    (.ret (.cast u64 (.self "seed")))))

/-- `lcrng/lcrng64.py:147-150`
```
            def next_rand(self: LCRNG64, maximum: np.uint32) -> np.uint32:
                return np.uint32(
                    (np.uint64(self.next_u32()) * np.uint64(maximum)) >> np.uint64(32)
                )
``` -/
def LCRNG64.next_rand : Fun where
  params := ["maximum"]
  body :=
    (.ret (.cast u32 (.bin .shr (.bin .mul (.cast u64 (.meth "next_u32" .nil)) (.cast u64 (.var "maximum"))) (.cast u64 (.num 0x20)))))

/-! ### mersenne_twister/mt.py -/

/-- `mersenne_twister/mt.py:27-37`
```
    def re_init(self, seed: np.uint32) -> None:
        """Reinitialize without creating a new object"""
        seed = np.uint32(seed)
        self.index = np.uint16(624)  # ensures shuffle after initialization
        self.state[0] = seed

        for i in range(1, 624):
            seed = np.uint32(
                np.uint32(0x6C078965) * (seed ^ (seed >> np.uint32(30))) + np.uint32(i)
            )
            self.state[i] = seed
``` -/
def MersenneTwister.re_init : Fun where
  params := ["seed"]
  body :=
    (.seq
     (.assign (.var "seed") (.cast u32 (.var "seed")))
    (.seq
     (.assign (.self "index") (.cast u16 (.num 0x270)))
    (.seq
     (.assign (.item (.self "state") (.num 0)) (.var "seed"))
    (.for "i" (.call "range" (.cons (.num 1) (.cons (.num 0x270) .nil)))
     (.seq
      (.assign (.var "seed") (.cast u32 (.bin .add (.bin .mul (.cast u32 (.num 0x6C078965)) (.bin .xor (.var "seed") (.bin .shr (.var "seed") (.cast u32 (.num 0x1E))))) (.cast u32 (.var "i")))))
     (.assign (.item (.self "state") (.var "i")) (.var "seed")))))))

/-- `mersenne_twister/mt.py:39-46`
```
    def advance(self, adv: np.uint32) -> None:
        """Advance Mersenne Twister sequence by adv"""
        adv = np.uint32(adv)
        adv += np.uint32(self.index)
        while adv >= np.uint32(624):
            self.shuffle()
            adv -= np.uint32(624)
        self.index = np.uint16(adv)
``` -/
def MersenneTwister.advance : Fun where
  params := ["adv"]
  body :=
    (.seq
     (.assign (.var "adv") (.cast u32 (.var "adv")))
    (.seq
     (.aug .add (.var "adv") (.cast u32 (.self "index")))
    (.seq
     (.while (.cmp .ge (.var "adv") (.cast u32 (.num 0x270)))
      (.seq
       (.expr (.meth "shuffle" .nil))
      (.aug .sub (.var "adv") (.cast u32 (.num 0x270)))))
    (.assign (.self "index") (.cast u16 (.var "adv"))))))

/-- `mersenne_twister/mt.py:48-61`
```
    def next(self) -> np.uint32:
        """Access and return the next 32-bit tempered rand"""
        if self.index == np.uint16(624):
            self.shuffle()

        y_rand = self.state[self.index]
        self.index += np.uint16(1)

        y_rand ^= y_rand >> np.uint32(11)
        y_rand ^= (y_rand << np.uint32(7)) & np.uint32(0x9D2C5680)
        y_rand ^= (y_rand << np.uint32(15)) & np.uint32(0xEFC60000)
        y_rand ^= y_rand >> np.uint32(18)

        return y_rand
``` -/
def MersenneTwister.next : Fun where
  params := []
  body :=
    (.seq
     (.ite (.cmp .eq (.self "index") (.cast u16 (.num 0x270)))
      (.expr (.meth "shuffle" .nil))
      .pass)
    (.seq
     (.assign (.var "y_rand") (.item (.self "state") (.self "index")))
    (.seq
     (.aug .add (.self "index") (.cast u16 (.num 1)))
    (.seq
     (.aug .xor (.var "y_rand") (.bin .shr (.var "y_rand") (.cast u32 (.num 0xB))))
    (.seq
     (.aug .xor (.var "y_rand") (.bin .and (.bin .shl (.var "y_rand") (.cast u32 (.num 7))) (.cast u32 (.num 0x9D2C5680))))
    (.seq
     (.aug .xor (.var "y_rand") (.bin .and (.bin .shl (.var "y_rand") (.cast u32 (.num 0xF))) (.cast u32 (.num 0xEFC60000))))
    (.seq
     (.aug .xor (.var "y_rand") (.bin .shr (.var "y_rand") (.cast u32 (.num 0x12))))
    (.ret (.var "y_rand")))))))))

/-- `mersenne_twister/mt.py:63-81`
```
    def shuffle(self) -> None:
        """Advance and shuffle the entire state (624 advances)"""
        state = self.state  # accessing self.state directly fails to vectorize
        upper_mask = np.uint32(0x80000000)
        lower_mask = np.uint32(0x7FFFFFFF)
        one = np.uint32(1)

        for i in range(227):
            y_val = (state[i] & upper_mask) | (state[i + 1] & lower_mask)
            state[i] = (y_val >> one) ^ MAG02[y_val & one] ^ state[i + 397]

        for i in range(227, 623):
            y_val = (state[i] & upper_mask) | (state[i + 1] & lower_mask)
            state[i] = (y_val >> one) ^ MAG02[y_val & one] ^ state[i - 227]

        y_val = (state[623] & upper_mask) | (state[0] & lower_mask)
        state[623] = (y_val >> one) ^ MAG02[y_val & one] ^ state[396]

        self.index = np.uint16(0)
``` -/
def MersenneTwister.shuffle : Fun where
  params := []
  body :=
    (.seq
     (.assign (.var "state") (.self "state"))
    (.seq
     (.assign (.var "upper_mask") (.cast u32 (.num 0x80000000)))
    (.seq
     (.assign (.var "lower_mask") (.cast u32 (.num 0x7FFFFFFF)))
    (.seq
     (.assign (.var "one") (.cast u32 (.num 1)))
    (.seq
     (.for "i" (.call "range" (.cons (.num 0xE3) .nil))
      (.seq
       (.assign (.var "y_val") (.bin .or (.bin .and (.item (.var "state") (.var "i")) (.var "upper_mask")) (.bin .and (.item (.var "state") (.bin .add (.var "i") (.num 1))) (.var "lower_mask"))))
      (.assign (.item (.var "state") (.var "i")) (.bin .xor (.bin .xor (.bin .shr (.var "y_val") (.var "one")) (.item (.var "MAG02") (.bin .and (.var "y_val") (.var "one")))) (.item (.var "state") (.bin .add (.var "i") (.num 0x18D)))))))
    (.seq
     (.for "i" (.call "range" (.cons (.num 0xE3) (.cons (.num 0x26F) .nil)))
      (.seq
       (.assign (.var "y_val") (.bin .or (.bin .and (.item (.var "state") (.var "i")) (.var "upper_mask")) (.bin .and (.item (.var "state") (.bin .add (.var "i") (.num 1))) (.var "lower_mask"))))
      (.assign (.item (.var "state") (.var "i")) (.bin .xor (.bin .xor (.bin .shr (.var "y_val") (.var "one")) (.item (.var "MAG02") (.bin .and (.var "y_val") (.var "one")))) (.item (.var "state") (.bin .sub (.var "i") (.num 0xE3)))))))
    (.seq
     (.assign (.var "y_val") (.bin .or (.bin .and (.item (.var "state") (.num 0x26F)) (.var "upper_mask")) (.bin .and (.item (.var "state") (.num 0)) (.var "lower_mask"))))
    (.seq
     (.assign (.item (.var "state") (.num 0x26F)) (.bin .xor (.bin .xor (.bin .shr (.var "y_val") (.var "one")) (.item (.var "MAG02") (.bin .and (.var "y_val") (.var "one")))) (.item (.var "state") (.num 0x18C))))
    (.assign (.self "index") (.cast u16 (.num 0)))))))))))

/-- `mersenne_twister/mt.py:83-86`
```
    def next_rand(self, maximum: np.uint32) -> np.uint32:
        """Generate and return the next [0, maximum) random uint
        via multiplication-shift distribution"""
        return np.uint32((np.uint64(self.next()) * np.uint64(maximum)) >> np.uint64(32))
``` -/
def MersenneTwister.next_rand : Fun where
  params := ["maximum"]
  body :=
    (.ret (.cast u32 (.bin .shr (.bin .mul (.cast u64 (.meth "next" .nil)) (.cast u64 (.var "maximum"))) (.cast u64 (.num 0x20)))))

/-- `mersenne_twister/mt.py:88-90`
```
    def next_rand_mod(self, maximum: np.uint32) -> np.uint32:
        """Generate and return the next [0, maximum) random uint via modulo distribution"""
        return self.next() % np.uint32(maximum)
``` -/
def MersenneTwister.next_rand_mod : Fun where
  params := ["maximum"]
  body :=
    (.ret (.bin .mod (.meth "next" .nil) (.cast u32 (.var "maximum"))))

/-! ### mersenne_twister/sfmt.py -/

/-- `mersenne_twister/sfmt.py:13-120`
```
def sfmt_shuffle(state: np.ndarray):
    """SFMT shuffling function"""
    # the contents of this function are only ever used when USE_NUMBA is set to False
    # otherwise, it is overloaded with the ir version

    # compute the first two states manually

    x_0 = state[0] << 8
    x_1 = (state[1] << 8) | (state[0] >> 24)
    x_2 = (state[2] << 8) | (state[1] >> 24)
    x_3 = (state[3] << 8) | (state[2] >> 24)

    y_0 = (state[617] << 24) | (state[616] >> 8)
    y_1 = (state[618] << 24) | (state[617] >> 8)
    y_2 = (state[619] << 24) | (state[618] >> 8)
    y_3 = state[619] >> 8

    b_0 = (state[488] >> 11) & 0xDFFFFFEF
    b_1 = (state[489] >> 11) & 0xDDFECB7F
    b_2 = (state[490] >> 11) & 0xBFFAFFFF
    b_3 = (state[491] >> 11) & 0xBFFFFFF6

    d_0 = state[620] << 18
    d_1 = state[621] << 18
    d_2 = state[622] << 18
    d_3 = state[623] << 18

    state[0] ^= x_0 ^ y_0 ^ b_0 ^ d_0
    state[1] ^= x_1 ^ y_1 ^ b_1 ^ d_1
    state[2] ^= x_2 ^ y_2 ^ b_2 ^ d_2
    state[3] ^= x_3 ^ y_3 ^ b_3 ^ d_3

    x_0 = state[4] << 8
    x_1 = (state[5] << 8) | (state[4] >> 24)
    x_2 = (state[6] << 8) | (state[5] >> 24)
    x_3 = (state[7] << 8) | (state[6] >> 24)

    y_0 = (state[621] << 24) | (state[620] >> 8)
    y_1 = (state[622] << 24) | (state[621] >> 8)
    y_2 = (state[623] << 24) | (state[622] >> 8)
    y_3 = state[623] >> 8

    b_0 = (state[492] >> 11) & 0xDFFFFFEF
    b_1 = (state[493] >> 11) & 0xDDFECB7F
    b_2 = (state[494] >> 11) & 0xBFFAFFFF
    b_3 = (state[495] >> 11) & 0xBFFFFFF6

    d_0 = state[0] << 18
    d_1 = state[1] << 18
    d_2 = state[2] << 18
    d_3 = state[3] << 18

    state[4] ^= x_0 ^ y_0 ^ b_0 ^ d_0
    state[5] ^= x_1 ^ y_1 ^ b_1 ^ d_1
    state[6] ^= x_2 ^ y_2 ^ b_2 ^ d_2
    state[7] ^= x_3 ^ y_3 ^ b_3 ^ d_3

    for i in range(8, 136, 4):
        x_0 = state[i] << 8
        x_1 = (state[i + 1] << 8) | (state[i] >> 24)
        x_2 = (state[i + 2] << 8) | (state[i + 1] >> 24)
        x_3 = (state[i + 3] << 8) | (state[i + 2] >> 24)

        b_0 = (state[i + 488] >> 11) & 0xDFFFFFEF
        b_1 = (state[i + 489] >> 11) & 0xDDFECB7F
        b_2 = (state[i + 490] >> 11) & 0xBFFAFFFF
        b_3 = (state[i + 491] >> 11) & 0xBFFFFFF6

        d_0 = state[i - 4] << 18
        d_1 = state[i - 3] << 18
        d_2 = state[i - 2] << 18
        d_3 = state[i - 1] << 18

        y_0 = (state[i - 7] << 24) | (state[i - 8] >> 8)
        y_1 = (state[i - 6] << 24) | (state[i - 7] >> 8)
        y_2 = (state[i - 5] << 24) | (state[i - 6] >> 8)
        y_3 = state[i - 5] >> 8

        state[i] ^= x_0 ^ b_0 ^ d_0 ^ y_0
        state[i + 1] ^= x_1 ^ b_1 ^ d_1 ^ y_1
        state[i + 2] ^= x_2 ^ b_2 ^ d_2 ^ y_2
        state[i + 3] ^= x_3 ^ b_3 ^ d_3 ^ y_3

    for i in range(136, 624, 4):
        x_0 = state[i] << 8
        x_1 = (state[i + 1] << 8) | (state[i] >> 24)
        x_2 = (state[i + 2] << 8) | (state[i + 1] >> 24)
        x_3 = (state[i + 3] << 8) | (state[i + 2] >> 24)

        b_0 = (state[i - 136] >> 11) & 0xDFFFFFEF
        b_1 = (state[i - 135] >> 11) & 0xDDFECB7F
        b_2 = (state[i - 134] >> 11) & 0xBFFAFFFF
        b_3 = (state[i - 133] >> 11) & 0xBFFFFFF6

        d_0 = state[i - 4] << 18
        d_1 = state[i - 3] << 18
        d_2 = state[i - 2] << 18
        d_3 = state[i - 1] << 18

        y_0 = (state[i - 7] << 24) | (state[i - 8] >> 8)
        y_1 = (state[i - 6] << 24) | (state[i - 7] >> 8)
        y_2 = (state[i - 5] << 24) | (state[i - 6] >> 8)
        y_3 = state[i - 5] >> 8

        state[i] ^= x_0 ^ b_0 ^ d_0 ^ y_0
        state[i + 1] ^= x_1 ^ b_1 ^ d_1 ^ y_1
        state[i + 2] ^= x_2 ^ b_2 ^ d_2 ^ y_2
        state[i + 3] ^= x_3 ^ b_3 ^ d_3 ^ y_3
``` -/
def sfmt_shuffle : Fun where
  params := ["state"]
  body :=
    (.seq
     (.assign (.var "x_0") (.bin .shl (.item (.var "state") (.num 0)) (.num 8)))
    (.seq
     (.assign (.var "x_1") (.bin .or (.bin .shl (.item (.var "state") (.num 1)) (.num 8)) (.bin .shr (.item (.var "state") (.num 0)) (.num 0x18))))
    (.seq
     (.assign (.var "x_2") (.bin .or (.bin .shl (.item (.var "state") (.num 2)) (.num 8)) (.bin .shr (.item (.var "state") (.num 1)) (.num 0x18))))
    (.seq
     (.assign (.var "x_3") (.bin .or (.bin .shl (.item (.var "state") (.num 3)) (.num 8)) (.bin .shr (.item (.var "state") (.num 2)) (.num 0x18))))
    (.seq
     (.assign (.var "y_0") (.bin .or (.bin .shl (.item (.var "state") (.num 0x269)) (.num 0x18)) (.bin .shr (.item (.var "state") (.num 0x268)) (.num 8))))
    (.seq
     (.assign (.var "y_1") (.bin .or (.bin .shl (.item (.var "state") (.num 0x26A)) (.num 0x18)) (.bin .shr (.item (.var "state") (.num 0x269)) (.num 8))))
    (.seq
     (.assign (.var "y_2") (.bin .or (.bin .shl (.item (.var "state") (.num 0x26B)) (.num 0x18)) (.bin .shr (.item (.var "state") (.num 0x26A)) (.num 8))))
    (.seq
     (.assign (.var "y_3") (.bin .shr (.item (.var "state") (.num 0x26B)) (.num 8)))
    (.seq
     (.assign (.var "b_0") (.bin .and (.bin .shr (.item (.var "state") (.num 0x1E8)) (.num 0xB)) (.num 0xDFFFFFEF)))
    (.seq
     (.assign (.var "b_1") (.bin .and (.bin .shr (.item (.var "state") (.num 0x1E9)) (.num 0xB)) (.num 0xDDFECB7F)))
    (.seq
     (.assign (.var "b_2") (.bin .and (.bin .shr (.item (.var "state") (.num 0x1EA)) (.num 0xB)) (.num 0xBFFAFFFF)))
    (.seq
     (.assign (.var "b_3") (.bin .and (.bin .shr (.item (.var "state") (.num 0x1EB)) (.num 0xB)) (.num 0xBFFFFFF6)))
    (.seq
     (.assign (.var "d_0") (.bin .shl (.item (.var "state") (.num 0x26C)) (.num 0x12)))
    (.seq
     (.assign (.var "d_1") (.bin .shl (.item (.var "state") (.num 0x26D)) (.num 0x12)))
    (.seq
     (.assign (.var "d_2") (.bin .shl (.item (.var "state") (.num 0x26E)) (.num 0x12)))
    (.seq
     (.assign (.var "d_3") (.bin .shl (.item (.var "state") (.num 0x26F)) (.num 0x12)))
    (.seq
     (.aug .xor (.item (.var "state") (.num 0)) (.bin .xor (.bin .xor (.bin .xor (.var "x_0") (.var "y_0")) (.var "b_0")) (.var "d_0")))
    (.seq
     (.aug .xor (.item (.var "state") (.num 1)) (.bin .xor (.bin .xor (.bin .xor (.var "x_1") (.var "y_1")) (.var "b_1")) (.var "d_1")))
    (.seq
     (.aug .xor (.item (.var "state") (.num 2)) (.bin .xor (.bin .xor (.bin .xor (.var "x_2") (.var "y_2")) (.var "b_2")) (.var "d_2")))
    (.seq
     (.aug .xor (.item (.var "state") (.num 3)) (.bin .xor (.bin .xor (.bin .xor (.var "x_3") (.var "y_3")) (.var "b_3")) (.var "d_3")))
    (.seq
     (.assign (.var "x_0") (.bin .shl (.item (.var "state") (.num 4)) (.num 8)))
    (.seq
     (.assign (.var "x_1") (.bin .or (.bin .shl (.item (.var "state") (.num 5)) (.num 8)) (.bin .shr (.item (.var "state") (.num 4)) (.num 0x18))))
    (.seq
     (.assign (.var "x_2") (.bin .or (.bin .shl (.item (.var "state") (.num 6)) (.num 8)) (.bin .shr (.item (.var "state") (.num 5)) (.num 0x18))))
    (.seq
     (.assign (.var "x_3") (.bin .or (.bin .shl (.item (.var "state") (.num 7)) (.num 8)) (.bin .shr (.item (.var "state") (.num 6)) (.num 0x18))))
    (.seq
     (.assign (.var "y_0") (.bin .or (.bin .shl (.item (.var "state") (.num 0x26D)) (.num 0x18)) (.bin .shr (.item (.var "state") (.num 0x26C)) (.num 8))))
    (.seq
     (.assign (.var "y_1") (.bin .or (.bin .shl (.item (.var "state") (.num 0x26E)) (.num 0x18)) (.bin .shr (.item (.var "state") (.num 0x26D)) (.num 8))))
    (.seq
     (.assign (.var "y_2") (.bin .or (.bin .shl (.item (.var "state") (.num 0x26F)) (.num 0x18)) (.bin .shr (.item (.var "state") (.num 0x26E)) (.num 8))))
    (.seq
     (.assign (.var "y_3") (.bin .shr (.item (.var "state") (.num 0x26F)) (.num 8)))
    (.seq
     (.assign (.var "b_0") (.bin .and (.bin .shr (.item (.var "state") (.num 0x1EC)) (.num 0xB)) (.num 0xDFFFFFEF)))
    (.seq
     (.assign (.var "b_1") (.bin .and (.bin .shr (.item (.var "state") (.num 0x1ED)) (.num 0xB)) (.num 0xDDFECB7F)))
    (.seq
     (.assign (.var "b_2") (.bin .and (.bin .shr (.item (.var "state") (.num 0x1EE)) (.num 0xB)) (.num 0xBFFAFFFF)))
    (.seq
     (.assign (.var "b_3") (.bin .and (.bin .shr (.item (.var "state") (.num 0x1EF)) (.num 0xB)) (.num 0xBFFFFFF6)))
    (.seq
     (.assign (.var "d_0") (.bin .shl (.item (.var "state") (.num 0)) (.num 0x12)))
    (.seq
     (.assign (.var "d_1") (.bin .shl (.item (.var "state") (.num 1)) (.num 0x12)))
    (.seq
     (.assign (.var "d_2") (.bin .shl (.item (.var "state") (.num 2)) (.num 0x12)))
    (.seq
     (.assign (.var "d_3") (.bin .shl (.item (.var "state") (.num 3)) (.num 0x12)))
    (.seq
     (.aug .xor (.item (.var "state") (.num 4)) (.bin .xor (.bin .xor (.bin .xor (.var "x_0") (.var "y_0")) (.var "b_0")) (.var "d_0")))
    (.seq
     (.aug .xor (.item (.var "state") (.num 5)) (.bin .xor (.bin .xor (.bin .xor (.var "x_1") (.var "y_1")) (.var "b_1")) (.var "d_1")))
    (.seq
     (.aug .xor (.item (.var "state") (.num 6)) (.bin .xor (.bin .xor (.bin .xor (.var "x_2") (.var "y_2")) (.var "b_2")) (.var "d_2")))
    (.seq
     (.aug .xor (.item (.var "state") (.num 7)) (.bin .xor (.bin .xor (.bin .xor (.var "x_3") (.var "y_3")) (.var "b_3")) (.var "d_3")))
    (.seq
     (.for "i" (.call "range" (.cons (.num 8) (.cons (.num 0x88) (.cons (.num 4) .nil))))
      (.seq
       (.assign (.var "x_0") (.bin .shl (.item (.var "state") (.var "i")) (.num 8)))
      (.seq
       (.assign (.var "x_1") (.bin .or (.bin .shl (.item (.var "state") (.bin .add (.var "i") (.num 1))) (.num 8)) (.bin .shr (.item (.var "state") (.var "i")) (.num 0x18))))
      (.seq
       (.assign (.var "x_2") (.bin .or (.bin .shl (.item (.var "state") (.bin .add (.var "i") (.num 2))) (.num 8)) (.bin .shr (.item (.var "state") (.bin .add (.var "i") (.num 1))) (.num 0x18))))
      (.seq
       (.assign (.var "x_3") (.bin .or (.bin .shl (.item (.var "state") (.bin .add (.var "i") (.num 3))) (.num 8)) (.bin .shr (.item (.var "state") (.bin .add (.var "i") (.num 2))) (.num 0x18))))
      (.seq
       (.assign (.var "b_0") (.bin .and (.bin .shr (.item (.var "state") (.bin .add (.var "i") (.num 0x1E8))) (.num 0xB)) (.num 0xDFFFFFEF)))
      (.seq
       (.assign (.var "b_1") (.bin .and (.bin .shr (.item (.var "state") (.bin .add (.var "i") (.num 0x1E9))) (.num 0xB)) (.num 0xDDFECB7F)))
      (.seq
       (.assign (.var "b_2") (.bin .and (.bin .shr (.item (.var "state") (.bin .add (.var "i") (.num 0x1EA))) (.num 0xB)) (.num 0xBFFAFFFF)))
      (.seq
       (.assign (.var "b_3") (.bin .and (.bin .shr (.item (.var "state") (.bin .add (.var "i") (.num 0x1EB))) (.num 0xB)) (.num 0xBFFFFFF6)))
      (.seq
       (.assign (.var "d_0") (.bin .shl (.item (.var "state") (.bin .sub (.var "i") (.num 4))) (.num 0x12)))
      (.seq
       (.assign (.var "d_1") (.bin .shl (.item (.var "state") (.bin .sub (.var "i") (.num 3))) (.num 0x12)))
      (.seq
       (.assign (.var "d_2") (.bin .shl (.item (.var "state") (.bin .sub (.var "i") (.num 2))) (.num 0x12)))
      (.seq
       (.assign (.var "d_3") (.bin .shl (.item (.var "state") (.bin .sub (.var "i") (.num 1))) (.num 0x12)))
      (.seq
       (.assign (.var "y_0") (.bin .or (.bin .shl (.item (.var "state") (.bin .sub (.var "i") (.num 7))) (.num 0x18)) (.bin .shr (.item (.var "state") (.bin .sub (.var "i") (.num 8))) (.num 8))))
      (.seq
       (.assign (.var "y_1") (.bin .or (.bin .shl (.item (.var "state") (.bin .sub (.var "i") (.num 6))) (.num 0x18)) (.bin .shr (.item (.var "state") (.bin .sub (.var "i") (.num 7))) (.num 8))))
      (.seq
       (.assign (.var "y_2") (.bin .or (.bin .shl (.item (.var "state") (.bin .sub (.var "i") (.num 5))) (.num 0x18)) (.bin .shr (.item (.var "state") (.bin .sub (.var "i") (.num 6))) (.num 8))))
      (.seq
       (.assign (.var "y_3") (.bin .shr (.item (.var "state") (.bin .sub (.var "i") (.num 5))) (.num 8)))
      (.seq
       (.aug .xor (.item (.var "state") (.var "i")) (.bin .xor (.bin .xor (.bin .xor (.var "x_0") (.var "b_0")) (.var "d_0")) (.var "y_0")))
      (.seq
       (.aug .xor (.item (.var "state") (.bin .add (.var "i") (.num 1))) (.bin .xor (.bin .xor (.bin .xor (.var "x_1") (.var "b_1")) (.var "d_1")) (.var "y_1")))
      (.seq
       (.aug .xor (.item (.var "state") (.bin .add (.var "i") (.num 2))) (.bin .xor (.bin .xor (.bin .xor (.var "x_2") (.var "b_2")) (.var "d_2")) (.var "y_2")))
      (.aug .xor (.item (.var "state") (.bin .add (.var "i") (.num 3))) (.bin .xor (.bin .xor (.bin .xor (.var "x_3") (.var "b_3")) (.var "d_3")) (.var "y_3")))))))))))))))))))))))
    (.for "i" (.call "range" (.cons (.num 0x88) (.cons (.num 0x270) (.cons (.num 4) .nil))))
     (.seq
      (.assign (.var "x_0") (.bin .shl (.item (.var "state") (.var "i")) (.num 8)))
     (.seq
      (.assign (.var "x_1") (.bin .or (.bin .shl (.item (.var "state") (.bin .add (.var "i") (.num 1))) (.num 8)) (.bin .shr (.item (.var "state") (.var "i")) (.num 0x18))))
     (.seq
      (.assign (.var "x_2") (.bin .or (.bin .shl (.item (.var "state") (.bin .add (.var "i") (.num 2))) (.num 8)) (.bin .shr (.item (.var "state") (.bin .add (.var "i") (.num 1))) (.num 0x18))))
     (.seq
      (.assign (.var "x_3") (.bin .or (.bin .shl (.item (.var "state") (.bin .add (.var "i") (.num 3))) (.num 8)) (.bin .shr (.item (.var "state") (.bin .add (.var "i") (.num 2))) (.num 0x18))))
     (.seq
      (.assign (.var "b_0") (.bin .and (.bin .shr (.item (.var "state") (.bin .sub (.var "i") (.num 0x88))) (.num 0xB)) (.num 0xDFFFFFEF)))
     (.seq
      (.assign (.var "b_1") (.bin .and (.bin .shr (.item (.var "state") (.bin .sub (.var "i") (.num 0x87))) (.num 0xB)) (.num 0xDDFECB7F)))
     (.seq
      (.assign (.var "b_2") (.bin .and (.bin .shr (.item (.var "state") (.bin .sub (.var "i") (.num 0x86))) (.num 0xB)) (.num 0xBFFAFFFF)))
     (.seq
      (.assign (.var "b_3") (.bin .and (.bin .shr (.item (.var "state") (.bin .sub (.var "i") (.num 0x85))) (.num 0xB)) (.num 0xBFFFFFF6)))
     (.seq
      (.assign (.var "d_0") (.bin .shl (.item (.var "state") (.bin .sub (.var "i") (.num 4))) (.num 0x12)))
     (.seq
      (.assign (.var "d_1") (.bin .shl (.item (.var "state") (.bin .sub (.var "i") (.num 3))) (.num 0x12)))
     (.seq
      (.assign (.var "d_2") (.bin .shl (.item (.var "state") (.bin .sub (.var "i") (.num 2))) (.num 0x12)))
     (.seq
      (.assign (.var "d_3") (.bin .shl (.item (.var "state") (.bin .sub (.var "i") (.num 1))) (.num 0x12)))
     (.seq
      (.assign (.var "y_0") (.bin .or (.bin .shl (.item (.var "state") (.bin .sub (.var "i") (.num 7))) (.num 0x18)) (.bin .shr (.item (.var "state") (.bin .sub (.var "i") (.num 8))) (.num 8))))
     (.seq
      (.assign (.var "y_1") (.bin .or (.bin .shl (.item (.var "state") (.bin .sub (.var "i") (.num 6))) (.num 0x18)) (.bin .shr (.item (.var "state") (.bin .sub (.var "i") (.num 7))) (.num 8))))
     (.seq
      (.assign (.var "y_2") (.bin .or (.bin .shl (.item (.var "state") (.bin .sub (.var "i") (.num 5))) (.num 0x18)) (.bin .shr (.item (.var "state") (.bin .sub (.var "i") (.num 6))) (.num 8))))
     (.seq
      (.assign (.var "y_3") (.bin .shr (.item (.var "state") (.bin .sub (.var "i") (.num 5))) (.num 8)))
     (.seq
      (.aug .xor (.item (.var "state") (.var "i")) (.bin .xor (.bin .xor (.bin .xor (.var "x_0") (.var "b_0")) (.var "d_0")) (.var "y_0")))
     (.seq
      (.aug .xor (.item (.var "state") (.bin .add (.var "i") (.num 1))) (.bin .xor (.bin .xor (.bin .xor (.var "x_1") (.var "b_1")) (.var "d_1")) (.var "y_1")))
     (.seq
      (.aug .xor (.item (.var "state") (.bin .add (.var "i") (.num 2))) (.bin .xor (.bin .xor (.bin .xor (.var "x_2") (.var "b_2")) (.var "d_2")) (.var "y_2")))
     (.aug .xor (.item (.var "state") (.bin .add (.var "i") (.num 3))) (.bin .xor (.bin .xor (.bin .xor (.var "x_3") (.var "b_3")) (.var "d_3")) (.var "y_3"))))))))))))))))))))))))))))))))))))))))))))))))))))))))))))))))

/-- `mersenne_twister/sfmt.py:276-296`
```
    def re_init(self, seed: np.uint32) -> None:
        """Reinitialize without creating a new object"""
        seed = np.uint32(seed)
        self.state[0] = seed
        self.index = np.uint16(624)  # ensures shuffle after initialization
        inner = np.uint32(seed & np.uint32(1))

        for i in range(1, 624):
            seed = np.uint32(
                np.uint32(0x6C078965) * (seed ^ (seed >> np.uint32(30))) + np.uint32(i)
            )
            self.state[i] = seed

        inner ^= self.state[3] & np.uint32(0x13C9E684)
        inner ^= inner >> 16
        inner ^= inner >> 8
        inner ^= inner >> 4
        inner ^= inner >> 2
        inner ^= inner >> 1

        self.state[0] ^= ~inner & np.uint32(1)
``` -/
def SIMDFastMersenneTwister.re_init : Fun where
  params := ["seed"]
  body :=
    (.seq
     (.assign (.var "seed") (.cast u32 (.var "seed")))
    (.seq
     (.assign (.item (.self "state") (.num 0)) (.var "seed"))
    (.seq
     (.assign (.self "index") (.cast u16 (.num 0x270)))
    (.seq
     (.assign (.var "inner") (.cast u32 (.bin .and (.var "seed") (.cast u32 (.num 1)))))
    (.seq
     (.for "i" (.call "range" (.cons (.num 1) (.cons (.num 0x270) .nil)))
      (.seq
       (.assign (.var "seed") (.cast u32 (.bin .add (.bin .mul (.cast u32 (.num 0x6C078965)) (.bin .xor (.var "seed") (.bin .shr (.var "seed") (.cast u32 (.num 0x1E))))) (.cast u32 (.var "i")))))
      (.assign (.item (.self "state") (.var "i")) (.var "seed"))))
    (.seq
     (.aug .xor (.var "inner") (.bin .and (.item (.self "state") (.num 3)) (.cast u32 (.num 0x13C9E684))))
    (.seq
     (.aug .xor (.var "inner") (.bin .shr (.var "inner") (.num 0x10)))
    (.seq
     (.aug .xor (.var "inner") (.bin .shr (.var "inner") (.num 8)))
    (.seq
     (.aug .xor (.var "inner") (.bin .shr (.var "inner") (.num 4)))
    (.seq
     (.aug .xor (.var "inner") (.bin .shr (.var "inner") (.num 2)))
    (.seq
     (.aug .xor (.var "inner") (.bin .shr (.var "inner") (.num 1)))
    (.aug .xor (.item (.self "state") (.num 0)) (.bin .and (.inv (.var "inner")) (.cast u32 (.num 1)))))))))))))))

/-- `mersenne_twister/sfmt.py:298-305`
```
    def advance(self, adv: np.uint32) -> None:
        """Advance SIMD-oriented Fast Mersenne Twister sequence by adv"""
        adv = np.uint32(adv)
        adv = (adv * np.uint32(2)) + np.uint32(self.index)
        while adv >= np.uint32(624):
            self.shuffle()
            adv -= np.uint32(624)
        self.index = np.uint16(adv)
``` -/
def SIMDFastMersenneTwister.advance : Fun where
  params := ["adv"]
  body :=
    (.seq
     (.assign (.var "adv") (.cast u32 (.var "adv")))
    (.seq
     (.assign (.var "adv") (.bin .add (.bin .mul (.var "adv") (.cast u32 (.num 2))) (.cast u32 (.self "index"))))
    (.seq
     (.while (.cmp .ge (.var "adv") (.cast u32 (.num 0x270)))
      (.seq
       (.expr (.meth "shuffle" .nil))
      (.aug .sub (.var "adv") (.cast u32 (.num 0x270)))))
    (.assign (.self "index") (.cast u16 (.var "adv"))))))

/-- `mersenne_twister/sfmt.py:307-316`
```
    def next(self) -> np.uint64:
        """Access and return the next 64-bit rand"""
        if self.index == np.uint16(624):
            self.shuffle()

        low = self.state[self.index]
        self.index += 1
        high = self.state[self.index]
        self.index += 1
        return np.uint64(low) | (np.uint64(high) << np.uint64(32))
``` -/
def SIMDFastMersenneTwister.next : Fun where
  params := []
  body :=
    (.seq
     (.ite (.cmp .eq (.self "index") (.cast u16 (.num 0x270)))
      (.expr (.meth "shuffle" .nil))
      .pass)
    (.seq
     (.assign (.var "low") (.item (.self "state") (.self "index")))
    (.seq
     (.aug .add (.self "index") (.num 1))
    (.seq
     (.assign (.var "high") (.item (.self "state") (.self "index")))
    (.seq
     (.aug .add (.self "index") (.num 1))
    (.ret (.bin .or (.cast u64 (.var "low")) (.bin .shl (.cast u64 (.var "high")) (.cast u64 (.num 0x20))))))))))

/-- `mersenne_twister/sfmt.py:318-324`
```
    def shuffle(self) -> None:
        """Advance and shuffle the entire state (624 advances)"""
        state = self.state

        sfmt_shuffle(state)

        self.index = 0
``` -/
def SIMDFastMersenneTwister.shuffle : Fun where
  params := []
  body :=
    (.seq
     (.assign (.var "state") (.self "state"))
    (.seq
     (.expr (.call "sfmt_shuffle" (.cons (.var "state") .nil)))
    (.assign (.self "index") (.num 0))))

/-- `mersenne_twister/sfmt.py:326-328`
```
    def next_rand(self, maximum: np.uint64) -> np.uint64:
        """Generate and return the next [0, maximum) random uint via modulo distribution"""
        return self.next() % np.uint64(maximum)
``` -/
def SIMDFastMersenneTwister.next_rand : Fun where
  params := ["maximum"]
  body :=
    (.ret (.bin .mod (.meth "next" .nil) (.cast u64 (.var "maximum"))))

/-! ### mersenne_twister/tinymt.py -/

/-- `mersenne_twister/tinymt.py:22-48`
```
    def re_init(self, seed: np.uint32) -> None:
        """Reinitialize without creating a new object"""
        seed = np.uint32(seed)
        self.state[0] = seed
        self.state[1] = 0x8F7011EE
        self.state[2] = 0xFC78FF1F
        self.state[3] = 0x3793FDFF
        for i in range(1, 8):
            self.state[i & 3] ^= np.uint32(
                np.uint32(0x6C078965)
                * (self.state[(i - 1) & 3] ^ (self.state[(i - 1) & 3] >> np.uint32(30)))
                + np.uint32(i)
            )

        if (
            self.state[0] & np.uint32(0x7FFFFFFF) == np.uint32(0)
            and self.state[1] == np.uint32(0)
            and self.state[2] == np.uint32(0)
            and self.state[3] == np.uint32(0)
        ):
            self.state[0] = ord("T")
            self.state[1] = ord("I")
            self.state[2] = ord("N")
            self.state[3] = ord("Y")

        for _ in range(8):
            self.shuffle()
``` -/
def TinyMersenneTwister.re_init : Fun where
  params := ["seed"]
  body :=
    (.seq
     (.assign (.var "seed") (.cast u32 (.var "seed")))
    (.seq
     (.assign (.item (.self "state") (.num 0)) (.var "seed"))
    (.seq
     (.assign (.item (.self "state") (.num 1)) (.num 0x8F7011EE))
    (.seq
     (.assign (.item (.self "state") (.num 2)) (.num 0xFC78FF1F))
    (.seq
     (.assign (.item (.self "state") (.num 3)) (.num 0x3793FDFF))
    (.seq
     (.for "i" (.call "range" (.cons (.num 1) (.cons (.num 8) .nil)))
      (.aug .xor (.item (.self "state") (.bin .and (.var "i") (.num 3))) (.cast u32 (.bin .add (.bin .mul (.cast u32 (.num 0x6C078965)) (.bin .xor (.item (.self "state") (.bin .and (.bin .sub (.var "i") (.num 1)) (.num 3))) (.bin .shr (.item (.self "state") (.bin .and (.bin .sub (.var "i") (.num 1)) (.num 3))) (.cast u32 (.num 0x1E))))) (.cast u32 (.var "i"))))))
    (.seq
     (.ite (.and (.cmp .eq (.bin .and (.item (.self "state") (.num 0)) (.cast u32 (.num 0x7FFFFFFF))) (.cast u32 (.num 0))) (.and (.cmp .eq (.item (.self "state") (.num 1)) (.cast u32 (.num 0))) (.and (.cmp .eq (.item (.self "state") (.num 2)) (.cast u32 (.num 0))) (.cmp .eq (.item (.self "state") (.num 3)) (.cast u32 (.num 0))))))
      (.seq
       (.assign (.item (.self "state") (.num 0)) (.call "ord" (.cons (.str "T") .nil)))
      (.seq
       (.assign (.item (.self "state") (.num 1)) (.call "ord" (.cons (.str "I") .nil)))
      (.seq
       (.assign (.item (.self "state") (.num 2)) (.call "ord" (.cons (.str "N") .nil)))
      (.assign (.item (.self "state") (.num 3)) (.call "ord" (.cons (.str "Y") .nil))))))
      .pass)
    (.for "_" (.call "range" (.cons (.num 8) .nil))
     (.expr (.meth "shuffle" .nil))))))))))

/-- `mersenne_twister/tinymt.py:50-53`
```
    def advance(self, adv: np.uint32) -> None:
        """Advance Tiny Mersenne Twister sequence by adv"""
        for _ in range(adv):
            self.shuffle()
``` -/
def TinyMersenneTwister.advance : Fun where
  params := ["adv"]
  body :=
    (.for "_" (.call "range" (.cons (.var "adv") .nil))
     (.expr (.meth "shuffle" .nil)))

/-- `mersenne_twister/tinymt.py:55-58`
```
    def next(self) -> np.uint32:
        """Advance and return the next 32-bit tempered rand"""
        self.shuffle()
        return self.temper()
``` -/
def TinyMersenneTwister.next : Fun where
  params := []
  body :=
    (.seq
     (.expr (.meth "shuffle" .nil))
    (.ret (.meth "temper" .nil)))

/-- `mersenne_twister/tinymt.py:60-73`
```
    def shuffle(self) -> None:
        """Advance the state by 1"""
        y_val = self.state[3]
        x_val = (self.state[0] & np.uint32(0x7FFFFFFF)) ^ self.state[1] ^ self.state[2]

        x_val ^= x_val << np.uint32(1)
        y_val ^= (y_val >> np.uint32(1)) ^ x_val

        self.state[0] = self.state[1]
        self.state[1] = self.state[2] ^ ((y_val & np.uint32(1)) * np.uint32(0x8F7011EE))
        self.state[2] = (
            x_val ^ (y_val << np.uint32(10)) ^ ((y_val & 1) * np.uint32(0xFC78FF1F))
        )
        self.state[3] = y_val
``` -/
def TinyMersenneTwister.shuffle : Fun where
  params := []
  body :=
    (.seq
     (.assign (.var "y_val") (.item (.self "state") (.num 3)))
    (.seq
     (.assign (.var "x_val") (.bin .xor (.bin .xor (.bin .and (.item (.self "state") (.num 0)) (.cast u32 (.num 0x7FFFFFFF))) (.item (.self "state") (.num 1))) (.item (.self "state") (.num 2))))
    (.seq
     (.aug .xor (.var "x_val") (.bin .shl (.var "x_val") (.cast u32 (.num 1))))
    (.seq
     (.aug .xor (.var "y_val") (.bin .xor (.bin .shr (.var "y_val") (.cast u32 (.num 1))) (.var "x_val")))
    (.seq
     (.assign (.item (.self "state") (.num 0)) (.item (.self "state") (.num 1)))
    (.seq
     (.assign (.item (.self "state") (.num 1)) (.bin .xor (.item (.self "state") (.num 2)) (.bin .mul (.bin .and (.var "y_val") (.cast u32 (.num 1))) (.cast u32 (.num 0x8F7011EE)))))
    (.seq
     (.assign (.item (.self "state") (.num 2)) (.bin .xor (.bin .xor (.var "x_val") (.bin .shl (.var "y_val") (.cast u32 (.num 0xA)))) (.bin .mul (.bin .and (.var "y_val") (.num 1)) (.cast u32 (.num 0xFC78FF1F)))))
    (.assign (.item (.self "state") (.num 3)) (.var "y_val")))))))))

/-- `mersenne_twister/tinymt.py:75-82`
```
    def temper(self) -> np.uint32:
        """Access and return the next 32-bit tempered rand"""
        temper_0 = self.state[3]
        temper_1 = self.state[0] + (self.state[2] >> np.uint32(8))

        temper_0 ^= temper_1

        return temper_0 ^ ((temper_1 & 1) * np.uint32(0x3793FDFF))
``` -/
def TinyMersenneTwister.temper : Fun where
  params := []
  body :=
    (.seq
     (.assign (.var "temper_0") (.item (.self "state") (.num 3)))
    (.seq
     (.assign (.var "temper_1") (.bin .add (.item (.self "state") (.num 0)) (.bin .shr (.item (.self "state") (.num 2)) (.cast u32 (.num 8)))))
    (.seq
     (.aug .xor (.var "temper_0") (.var "temper_1"))
    (.ret (.bin .xor (.var "temper_0") (.bin .mul (.bin .and (.var "temper_1") (.num 1)) (.cast u32 (.num 0x3793FDFF))))))))

/-- `mersenne_twister/tinymt.py:84-87`
```
    def next_rand(self, maximum: np.uint32) -> np.uint32:
        """Generate and return the next [0, maximum) random uint
        via multiplication-shift distribution"""
        return np.uint32((np.uint64(self.next()) * np.uint64(maximum)) >> np.uint64(32))
``` -/
def TinyMersenneTwister.next_rand : Fun where
  params := ["maximum"]
  body :=
    (.ret (.cast u32 (.bin .shr (.bin .mul (.cast u64 (.meth "next" .nil)) (.cast u64 (.var "maximum"))) (.cast u64 (.num 0x20)))))

/-- `mersenne_twister/tinymt.py:89-91`
```
    def next_rand_mod(self, maximum: np.uint32) -> np.uint32:
        """Generate and return the next [0, maximum) random uint via modulo distribution"""
        return self.next() % np.uint32(maximum)
``` -/
def TinyMersenneTwister.next_rand_mod : Fun where
  params := ["maximum"]
  body :=
    (.ret (.bin .mod (.meth "next" .nil) (.cast u32 (.var "maximum"))))

/-! ### xorshift/xorshift128.py -/

/-- `xorshift/xorshift128.py:24-31`
```
    def re_init(
        self, seed_0: np.uint32, seed_1: np.uint32, seed_2: np.uint32, seed_3: np.uint32
    ) -> None:
        """Reinitialize without creating a new object"""
        self.state[0] = np.uint32(seed_0)
        self.state[1] = np.uint32(seed_1)
        self.state[2] = np.uint32(seed_2)
        self.state[3] = np.uint32(seed_3)
``` -/
def Xorshift128.re_init : Fun where
  params := ["seed_0", "seed_1", "seed_2", "seed_3"]
  body :=
    (.seq
     (.assign (.item (.self "state") (.num 0)) (.cast u32 (.var "seed_0")))
    (.seq
     (.assign (.item (.self "state") (.num 1)) (.cast u32 (.var "seed_1")))
    (.seq
     (.assign (.item (.self "state") (.num 2)) (.cast u32 (.var "seed_2")))
    (.assign (.item (.self "state") (.num 3)) (.cast u32 (.var "seed_3"))))))

/-- `xorshift/xorshift128.py:33-36`
```
    def advance(self, adv: np.uint32) -> None:
        """Advance Xorshift128 sequence by adv"""
        for _ in range(adv):
            self.next()
``` -/
def Xorshift128.advance : Fun where
  params := ["adv"]
  body :=
    (.for "_" (.call "range" (.cons (.var "adv") .nil))
     (.expr (.meth "next" .nil)))

/-- `xorshift/xorshift128.py:38-52`
```
    def next(self) -> np.uint32:
        """Advance and return the next 32-bit rand"""
        t_val = np.uint32(self.state[0])
        s_val = np.uint32(self.state[3])

        t_val ^= np.uint32(t_val) << np.uint32(11)
        t_val ^= np.uint32(t_val) >> np.uint32(8)
        t_val ^= np.uint32(s_val) ^ (np.uint32(s_val) >> np.uint32(19))

        self.state[0] = self.state[1]
        self.state[1] = self.state[2]
        self.state[2] = self.state[3]
        self.state[3] = t_val

        return np.uint32(t_val)
``` -/
def Xorshift128.next : Fun where
  params := []
  body :=
    (.seq
     (.assign (.var "t_val") (.cast u32 (.item (.self "state") (.num 0))))
    (.seq
     (.assign (.var "s_val") (.cast u32 (.item (.self "state") (.num 3))))
    (.seq
     (.aug .xor (.var "t_val") (.bin .shl (.cast u32 (.var "t_val")) (.cast u32 (.num 0xB))))
    (.seq
     (.aug .xor (.var "t_val") (.bin .shr (.cast u32 (.var "t_val")) (.cast u32 (.num 8))))
    (.seq
     (.aug .xor (.var "t_val") (.bin .xor (.cast u32 (.var "s_val")) (.bin .shr (.cast u32 (.var "s_val")) (.cast u32 (.num 0x13)))))
    (.seq
     (.assign (.item (.self "state") (.num 0)) (.item (.self "state") (.num 1)))
    (.seq
     (.assign (.item (.self "state") (.num 1)) (.item (.self "state") (.num 2)))
    (.seq
     (.assign (.item (.self "state") (.num 2)) (.item (.self "state") (.num 3)))
    (.seq
     (.assign (.item (.self "state") (.num 3)) (.var "t_val"))
    (.ret (.cast u32 (.var "t_val"))))))))))))

/-- `xorshift/xorshift128.py:54-73`
```
    def previous(self) -> np.uint32:
        """Advance backwards and return the last 32-bit rand"""
        rand = self.state[3]
        t_val = self.state[3]
        s_val = self.state[2]

        t_val ^= np.uint32(s_val) ^ (np.uint32(s_val) >> np.uint32(19))

        t_val ^= np.uint32(t_val) >> np.uint32(8)
        t_val ^= np.uint32(t_val) >> np.uint32(16)

        t_val ^= np.uint32(t_val) << np.uint32(11)
        t_val ^= np.uint32(t_val) << np.uint32(22)

        self.state[3] = self.state[2]
        self.state[2] = self.state[1]
        self.state[1] = self.state[0]
        self.state[0] = t_val

        return rand
``` -/
def Xorshift128.previous : Fun where
  params := []
  body :=
    (.seq
     (.assign (.var "rand") (.item (.self "state") (.num 3)))
    (.seq
     (.assign (.var "t_val") (.item (.self "state") (.num 3)))
    (.seq
     (.assign (.var "s_val") (.item (.self "state") (.num 2)))
    (.seq
     (.aug .xor (.var "t_val") (.bin .xor (.cast u32 (.var "s_val")) (.bin .shr (.cast u32 (.var "s_val")) (.cast u32 (.num 0x13)))))
    (.seq
     (.aug .xor (.var "t_val") (.bin .shr (.cast u32 (.var "t_val")) (.cast u32 (.num 8))))
    (.seq
     (.aug .xor (.var "t_val") (.bin .shr (.cast u32 (.var "t_val")) (.cast u32 (.num 0x10))))
    (.seq
     (.aug .xor (.var "t_val") (.bin .shl (.cast u32 (.var "t_val")) (.cast u32 (.num 0xB))))
    (.seq
     (.aug .xor (.var "t_val") (.bin .shl (.cast u32 (.var "t_val")) (.cast u32 (.num 0x16))))
    (.seq
     (.assign (.item (.self "state") (.num 3)) (.item (.self "state") (.num 2)))
    (.seq
     (.assign (.item (.self "state") (.num 2)) (.item (.self "state") (.num 1)))
    (.seq
     (.assign (.item (.self "state") (.num 1)) (.item (.self "state") (.num 0)))
    (.seq
     (.assign (.item (.self "state") (.num 0)) (.var "t_val"))
    (.ret (.var "rand"))))))))))))))

/-- `xorshift/xorshift128.py:75-83`
```
    def next_randrange(self, minimum: np.int32, maximum: np.int32) -> np.uint32:
        """Generate and return the next [minimum, maximum) random uint"""
        # the usage of int32 here is intentional
        minimum = np.int32(minimum)
        maximum = np.int32(maximum)

        diff = np.uint32(maximum - minimum)

        return np.uint32((self.next() % diff) + minimum)
``` -/
def Xorshift128.next_randrange : Fun where
  params := ["minimum", "maximum"]
  body :=
    (.seq
     (.assign (.var "minimum") (.cast i32 (.var "minimum")))
    (.seq
     (.assign (.var "maximum") (.cast i32 (.var "maximum")))
    (.seq
     (.assign (.var "diff") (.cast u32 (.bin .sub (.var "maximum") (.var "minimum"))))
    (.ret (.cast u32 (.bin .add (.bin .mod (.meth "next" .nil) (.var "diff")) (.var "minimum")))))))

/-- `xorshift/xorshift128.py:85-89`
```
    def next_rand(self, maximum: np.uint32) -> np.uint32:
        """Generate and return the next [0, maximum) random uint"""
        maximum = np.uint32(maximum)

        return self.next() % maximum
``` -/
def Xorshift128.next_rand : Fun where
  params := ["maximum"]
  body :=
    (.seq
     (.assign (.var "maximum") (.cast u32 (.var "maximum")))
    (.ret (.bin .mod (.meth "next" .nil) (.var "maximum"))))

/-- `xorshift/xorshift128.py:91-99`
```
    def next_alternate_rand(self, maximum: np.uint32) -> np.uint32:
        """Generate and return the next [0, maximum) random uint
        via next_randrange(-0x80000000, 0x7FFFFFFF) % maximum"""
        return (
            self.next_randrange(
                np.int32(-0x7FFFFFFF) - np.uint32(1), np.int32(0x7FFFFFFF)
            )
            % maximum
        )
``` -/
def Xorshift128.next_alternate_rand : Fun where
  params := ["maximum"]
  body :=
    (.ret (.bin .mod (.meth "next_randrange" (.cons (.bin .sub (.cast i32 (.num (-0x7FFFFFFF))) (.cast u32 (.num 1))) (.cons (.cast i32 (.num 0x7FFFFFFF)) .nil))) (.var "maximum")))

/-- `xorshift/xorshift128.py:101-112`
```
    def next_float_randrange(
        self, minimum: np.float32, maximum: np.float32
    ) -> np.float32:
        """Generate and return the next [minimum, maximum) random float"""
        minimum = np.float32(minimum)
        maximum = np.float32(maximum)

        rand_float = np.float32(self.next() & np.uint32(0x7FFFFF)) / np.float32(
            0x7FFFFF
        )

        return rand_float * minimum + (1 - rand_float) * maximum
``` -/
def Xorshift128.next_float_randrange : Fun where
  params := ["minimum", "maximum"]
  body :=
    (.seq
     (.assign (.var "minimum") (.call "np.float32" (.cons (.var "minimum") .nil)))
    (.seq
     (.assign (.var "maximum") (.call "np.float32" (.cons (.var "maximum") .nil)))
    (.seq
     (.assign (.var "rand_float") (.call "/" (.cons (.call "np.float32" (.cons (.bin .and (.meth "next" .nil) (.cast u32 (.num 0x7FFFFF))) .nil)) (.cons (.call "np.float32" (.cons (.num 0x7FFFFF) .nil)) .nil))))
    (.ret (.bin .add (.bin .mul (.var "rand_float") (.var "minimum")) (.bin .mul (.bin .sub (.num 1) (.var "rand_float")) (.var "maximum")))))))

/-! ### xorshift/xoroshiro128plus.py -/

/-- `xorshift/xoroshiro128plus.py:23-26`
```
    def advance(self, adv: np.uint64) -> None:
        """Advance Xoroshiro128+ sequence by adv"""
        for _ in range(adv):
            self.next()
``` -/
def Xoroshiro128Plus.advance : Fun where
  params := ["adv"]
  body :=
    (.for "_" (.call "range" (.cons (.var "adv") .nil))
     (.expr (.meth "next" .nil)))

/-- `xorshift/xoroshiro128plus.py:52-56`
```
    def re_init(
        self, seed_0: np.uint64, seed_1: np.uint64 = np.uint64(0x82A2B175229D6A5B)
    ) -> None:
        self.state[0] = np.uint64(seed_0)
        self.state[1] = np.uint64(seed_1)
``` -/
def Xoroshiro128PlusRejection.re_init : Fun where
  params := ["seed_0", "seed_1"]
  body :=
    (.seq
     (.assign (.item (.self "state") (.num 0)) (.cast u64 (.var "seed_0")))
    (.assign (.item (.self "state") (.num 1)) (.cast u64 (.var "seed_1"))))

/-- `xorshift/xoroshiro128plus.py:60-69`
```
    def next(self) -> np.uint64:
        seed_0 = self.state[0]
        seed_1 = self.state[1]
        result = np.uint64(seed_0 + seed_1)

        seed_1 ^= seed_0
        self.state[0] = rotate_left_u64(seed_0, 24) ^ seed_1 ^ (seed_1 << np.uint64(16))
        self.state[1] = rotate_left_u64(seed_1, 37)

        return np.uint64(result)
``` -/
def Xoroshiro128PlusRejection.next : Fun where
  params := []
  body :=
    (.seq
     (.assign (.var "seed_0") (.item (.self "state") (.num 0)))
    (.seq
     (.assign (.var "seed_1") (.item (.self "state") (.num 1)))
    (.seq
     (.assign (.var "result") (.cast u64 (.bin .add (.var "seed_0") (.var "seed_1"))))
    (.seq
     (.aug .xor (.var "seed_1") (.var "seed_0"))
    (.seq
     (.assign (.item (.self "state") (.num 0)) (.bin .xor (.bin .xor (.call "rotate_left_u64" (.cons (.var "seed_0") (.cons (.num 0x18) .nil))) (.var "seed_1")) (.bin .shl (.var "seed_1") (.cast u64 (.num 0x10)))))
    (.seq
     (.assign (.item (.self "state") (.num 1)) (.call "rotate_left_u64" (.cons (.var "seed_1") (.cons (.num 0x25) .nil))))
    (.ret (.cast u64 (.var "result")))))))))

/-- `xorshift/xoroshiro128plus.py:71-81`
```
    def previous(self) -> np.uint64:
        seed_1 = rotate_right_u64(self.state[1], 37)
        seed_0 = rotate_right_u64(
            self.state[0] ^ seed_1 ^ (seed_1 << np.uint64(16)), 24
        )
        seed_1 ^= seed_0

        self.state[0] = seed_0
        self.state[1] = seed_1

        return np.uint64(seed_0 + seed_1)
``` -/
def Xoroshiro128PlusRejection.previous : Fun where
  params := []
  body :=
    (.seq
     (.assign (.var "seed_1") (.call "rotate_right_u64" (.cons (.item (.self "state") (.num 1)) (.cons (.num 0x25) .nil))))
    (.seq
     (.assign (.var "seed_0") (.call "rotate_right_u64" (.cons (.bin .xor (.bin .xor (.item (.self "state") (.num 0)) (.var "seed_1")) (.bin .shl (.var "seed_1") (.cast u64 (.num 0x10)))) (.cons (.num 0x18) .nil))))
    (.seq
     (.aug .xor (.var "seed_1") (.var "seed_0"))
    (.seq
     (.assign (.item (.self "state") (.num 0)) (.var "seed_0"))
    (.seq
     (.assign (.item (.self "state") (.num 1)) (.var "seed_1"))
    (.ret (.cast u64 (.bin .add (.var "seed_0") (.var "seed_1")))))))))

/-- `xorshift/xoroshiro128plus.py:83-88`
```
    def next_rand(self, maximum: np.uint32) -> np.uint32:
        mask = self.bit_mask(maximum)
        result = self.next() & mask
        while result >= maximum:
            result = self.next() & mask
        return result
``` -/
def Xoroshiro128PlusRejection.next_rand : Fun where
  params := ["maximum"]
  body :=
    (.seq
     (.assign (.var "mask") (.meth "bit_mask" (.cons (.var "maximum") .nil)))
    (.seq
     (.assign (.var "result") (.bin .and (.meth "next" .nil) (.var "mask")))
    (.seq
     (.while (.cmp .ge (.var "result") (.var "maximum"))
      (.assign (.var "result") (.bin .and (.meth "next" .nil) (.var "mask"))))
    (.ret (.var "result")))))

/-- `xorshift/xoroshiro128plus.py:90-100`
```
    @staticmethod
    def bit_mask(val: np.uint32) -> np.uint32:
        """Create a bitmask that includes only up to the MSB of val"""
        val = np.uint32(val)
        val -= np.uint32(1)
        val |= val >> np.uint32(1)
        val |= val >> np.uint32(2)
        val |= val >> np.uint32(4)
        val |= val >> np.uint32(8)
        val |= val >> np.uint32(16)
        return val
``` -/
def Xoroshiro128PlusRejection.bit_mask : Fun where
  params := ["val"]
  body :=
    (.seq
     (.assign (.var "val") (.cast u32 (.var "val")))
    (.seq
     (.aug .sub (.var "val") (.cast u32 (.num 1)))
    (.seq
     (.aug .or (.var "val") (.bin .shr (.var "val") (.cast u32 (.num 1))))
    (.seq
     (.aug .or (.var "val") (.bin .shr (.var "val") (.cast u32 (.num 2))))
    (.seq
     (.aug .or (.var "val") (.bin .shr (.var "val") (.cast u32 (.num 4))))
    (.seq
     (.aug .or (.var "val") (.bin .shr (.var "val") (.cast u32 (.num 8))))
    (.seq
     (.aug .or (.var "val") (.bin .shr (.var "val") (.cast u32 (.num 0x10))))
    (.ret (.var "val")))))))))

/-- `xorshift/xoroshiro128plus.py:112-116`
```
    def re_init(self, seed: np.uint64) -> None:
        seed = np.uint64(seed)
        self.state[0] = self.splitmix(seed, np.uint64(0x9E3779B97F4A7C15))
        # 0x9E3779B97F4A7C15 + 0x9E3779B97F4A7C15 = 0x3C6EF372FE94F82A
        self.state[1] = self.splitmix(seed, np.uint64(0x3C6EF372FE94F82A))
``` -/
def SplitMixXoroshiro128Plus.re_init : Fun where
  params := ["seed"]
  body :=
    (.seq
     (.assign (.var "seed") (.cast u64 (.var "seed")))
    (.seq
     (.assign (.item (.self "state") (.num 0)) (.meth "splitmix" (.cons (.var "seed") (.cons (.cast u64 (.num 0x9E3779B97F4A7C15)) .nil))))
    (.assign (.item (.self "state") (.num 1)) (.meth "splitmix" (.cons (.var "seed") (.cons (.cast u64 (.num 0x3C6EF372FE94F82A)) .nil))))))

/-- `xorshift/xoroshiro128plus.py:120-130`
```
    @staticmethod
    def splitmix(seed: np.uint64, state: np.uint64) -> np.uint64:
        """Splitmix initialization function"""
        seed = np.uint64(seed)
        state = np.uint64(state)

        seed += state
        seed = np.uint64(0xBF58476D1CE4E5B9) * (seed ^ (seed >> np.uint64(30)))
        seed = np.uint64(0x94D049BB133111EB) * (seed ^ (seed >> np.uint64(27)))

        return np.uint64(seed ^ (seed >> np.uint64(31)))
``` -/
def SplitMixXoroshiro128Plus.splitmix : Fun where
  params := ["seed", "state"]
  body :=
    (.seq
     (.assign (.var "seed") (.cast u64 (.var "seed")))
    (.seq
     (.assign (.var "state") (.cast u64 (.var "state")))
    (.seq
     (.aug .add (.var "seed") (.var "state"))
    (.seq
     (.assign (.var "seed") (.bin .mul (.cast u64 (.num 0xBF58476D1CE4E5B9)) (.bin .xor (.var "seed") (.bin .shr (.var "seed") (.cast u64 (.num 0x1E))))))
    (.seq
     (.assign (.var "seed") (.bin .mul (.cast u64 (.num 0x94D049BB133111EB)) (.bin .xor (.var "seed") (.bin .shr (.var "seed") (.cast u64 (.num 0x1B))))))
    (.ret (.cast u64 (.bin .xor (.var "seed") (.bin .shr (.var "seed") (.cast u64 (.num 0x1F)))))))))))

/-- `xorshift/xoroshiro128plus.py:132-141`
```
    def next(self) -> np.uint32:
        seed_0 = self.state[0]
        seed_1 = self.state[1]
        result = np.uint64(seed_0 + seed_1)

        seed_1 ^= seed_0
        self.state[0] = rotate_left_u64(seed_0, 24) ^ seed_1 ^ (seed_1 << np.uint64(16))
        self.state[1] = rotate_left_u64(seed_1, 37)

        return np.uint32(result >> np.uint64(32))
``` -/
def SplitMixXoroshiro128Plus.next : Fun where
  params := []
  body :=
    (.seq
     (.assign (.var "seed_0") (.item (.self "state") (.num 0)))
    (.seq
     (.assign (.var "seed_1") (.item (.self "state") (.num 1)))
    (.seq
     (.assign (.var "result") (.cast u64 (.bin .add (.var "seed_0") (.var "seed_1"))))
    (.seq
     (.aug .xor (.var "seed_1") (.var "seed_0"))
    (.seq
     (.assign (.item (.self "state") (.num 0)) (.bin .xor (.bin .xor (.call "rotate_left_u64" (.cons (.var "seed_0") (.cons (.num 0x18) .nil))) (.var "seed_1")) (.bin .shl (.var "seed_1") (.cast u64 (.num 0x10)))))
    (.seq
     (.assign (.item (.self "state") (.num 1)) (.call "rotate_left_u64" (.cons (.var "seed_1") (.cons (.num 0x25) .nil))))
    (.ret (.cast u32 (.bin .shr (.var "result") (.cast u64 (.num 0x20)))))))))))

/-- `xorshift/xoroshiro128plus.py:143-153`
```
    def previous(self) -> np.uint32:
        seed_1 = rotate_right_u64(self.state[1], 37)
        seed_0 = rotate_right_u64(
            self.state[0] ^ seed_1 ^ (seed_1 << np.uint64(16)), 24
        )
        seed_1 ^= seed_0

        self.state[0] = seed_0
        self.state[1] = seed_1

        return np.uint32(np.uint64(seed_0 + seed_1) >> np.uint64(32))
``` -/
def SplitMixXoroshiro128Plus.previous : Fun where
  params := []
  body :=
    (.seq
     (.assign (.var "seed_1") (.call "rotate_right_u64" (.cons (.item (.self "state") (.num 1)) (.cons (.num 0x25) .nil))))
    (.seq
     (.assign (.var "seed_0") (.call "rotate_right_u64" (.cons (.bin .xor (.bin .xor (.item (.self "state") (.num 0)) (.var "seed_1")) (.bin .shl (.var "seed_1") (.cast u64 (.num 0x10)))) (.cons (.num 0x18) .nil))))
    (.seq
     (.aug .xor (.var "seed_1") (.var "seed_0"))
    (.seq
     (.assign (.item (.self "state") (.num 0)) (.var "seed_0"))
    (.seq
     (.assign (.item (.self "state") (.num 1)) (.var "seed_1"))
    (.ret (.cast u32 (.bin .shr (.cast u64 (.bin .add (.var "seed_0") (.var "seed_1"))) (.cast u64 (.num 0x20))))))))))

/-- `xorshift/xoroshiro128plus.py:155-156`
```
    def next_rand(self, maximum: np.uint32) -> np.uint32:
        return self.next() % maximum
``` -/
def SplitMixXoroshiro128Plus.next_rand : Fun where
  params := ["maximum"]
  body :=
    (.ret (.bin .mod (.meth "next" .nil) (.var "maximum")))

/-! ### sha1.py -/

/-- `sha1.py:19-30`
```
@optional_njit(return_type(array_type(np.uint32), (np.uint32,)))
def compute_nazo_bw(input_nazo: np.uint32) -> np.ndarray[np.uint32, 5]:
    """Compute the "nazo" values for black and white"""
    input_nazo = np.uint32(input_nazo)
    nazos = np.empty(5, dtype=np.uint32)
    nazos[0] = change_endian_u32(input_nazo)
    nazos[1] = nazos[2] = change_endian_u32(input_nazo + np.uint32(0xFC))
    nazos[3] = nazos[4] = change_endian_u32(
        input_nazo + np.uint32(0xFC) + np.uint32(0x4C)
    )

    return nazos
``` -/
def compute_nazo_bw : Fun where
  params := ["input_nazo"]
  args := some [u32]
  body :=
    (.seq
     (.assign (.var "input_nazo") (.cast u32 (.var "input_nazo")))
    (.seq
     (.assign (.var "nazos") (.call "np.empty.uint32" (.cons (.num 5) .nil)))
    (.seq
     (.assign (.item (.var "nazos") (.num 0)) (.call "change_endian_u32" (.cons (.var "input_nazo") .nil)))
    (.seq
     (.assign2 (.item (.var "nazos") (.num 1)) (.item (.var "nazos") (.num 2)) (.call "change_endian_u32" (.cons (.bin .add (.var "input_nazo") (.cast u32 (.num 0xFC))) .nil)))
    (.seq
     (.assign2 (.item (.var "nazos") (.num 3)) (.item (.var "nazos") (.num 4)) (.call "change_endian_u32" (.cons (.bin .add (.bin .add (.var "input_nazo") (.cast u32 (.num 0xFC))) (.cast u32 (.num 0x4C))) .nil)))
    (.ret (.var "nazos")))))))

/-- `sha1.py:33-47`
```
@optional_njit(return_type(array_type(np.uint32), (np.uint32, np.uint32, np.uint32)))
def compute_nazo_bw2(
    input_nazo: np.uint32, input_nazo0: np.uint32, input_nazo1: np.uint32
) -> np.ndarray[np.uint32, 5]:
    """Compute the "nazo" values for black 2 and white 2"""
    input_nazo = np.uint32(input_nazo)
    input_nazo0 = np.uint32(input_nazo0)
    input_nazo1 = np.uint32(input_nazo1)
    nazos = np.empty(5, dtype=np.uint32)
    nazos[0] = change_endian_u32(input_nazo0)
    nazos[1] = change_endian_u32(input_nazo1)
    nazos[2] = change_endian_u32(input_nazo)
    nazos[3] = nazos[4] = change_endian_u32(input_nazo + np.uint32(0x54))

    return nazos
``` -/
def compute_nazo_bw2 : Fun where
  params := ["input_nazo", "input_nazo0", "input_nazo1"]
  args := some [u32, u32, u32]
  body :=
    (.seq
     (.assign (.var "input_nazo") (.cast u32 (.var "input_nazo")))
    (.seq
     (.assign (.var "input_nazo0") (.cast u32 (.var "input_nazo0")))
    (.seq
     (.assign (.var "input_nazo1") (.cast u32 (.var "input_nazo1")))
    (.seq
     (.assign (.var "nazos") (.call "np.empty.uint32" (.cons (.num 5) .nil)))
    (.seq
     (.assign (.item (.var "nazos") (.num 0)) (.call "change_endian_u32" (.cons (.var "input_nazo0") .nil)))
    (.seq
     (.assign (.item (.var "nazos") (.num 1)) (.call "change_endian_u32" (.cons (.var "input_nazo1") .nil)))
    (.seq
     (.assign (.item (.var "nazos") (.num 2)) (.call "change_endian_u32" (.cons (.var "input_nazo") .nil)))
    (.seq
     (.assign2 (.item (.var "nazos") (.num 3)) (.item (.var "nazos") (.num 4)) (.call "change_endian_u32" (.cons (.bin .add (.var "input_nazo") (.cast u32 (.num 0x54))) .nil)))
    (.ret (.var "nazos"))))))))))

/-- `sha1.py:118-188`
```
@optional_njit(
    return_type(array_type(np.uint32, readonly=True), (np.uint32, np.uint8, np.uint8))
)
def get_nazo(
    version: Game, language: Language, ds_type: DSType
) -> np.ndarray[np.uint32, 5]:
    """Get the nazos for a specific game, language, and ds type"""
    if language == Language.ENGLISH:
        if version == Game.BLACK:
            return ENGLISH_BLACK if ds_type == DSType.DS else ENGLISH_BLACK_DSI
        if version == Game.WHITE:
            return ENGLISH_WHITE if ds_type == DSType.DS else ENGLISH_WHITE_DSI
        if version == Game.BLACK2:
            return ENGLISH_BLACK2 if ds_type == DSType.DS else ENGLISH_BLACK2_DSI
        if version == Game.WHITE2:
            return ENGLISH_WHITE2 if ds_type == DSType.DS else ENGLISH_WHITE2_DSI
    if language == Language.JAPANESE:
        if version == Game.BLACK:
            return JAPANESE_BLACK if ds_type == DSType.DS else JAPANESE_BLACK_DSI
        if version == Game.WHITE:
            return JAPANESE_WHITE if ds_type == DSType.DS else JAPANESE_WHITE_DSI
        if version == Game.BLACK2:
            return JAPANESE_BLACK2 if ds_type == DSType.DS else JAPANESE_BLACK2_DSI
        if version == Game.WHITE2:
            return JAPANESE_WHITE2 if ds_type == DSType.DS else JAPANESE_WHITE2_DSI
    if language == Language.GERMAN:
        if version == Game.BLACK:
            return GERMAN_BLACK if ds_type == DSType.DS else GERMAN_BLACK_DSI
        if version == Game.WHITE:
            return GERMAN_WHITE if ds_type == DSType.DS else GERMAN_WHITE_DSI
        if version == Game.BLACK2:
            return GERMAN_BLACK2 if ds_type == DSType.DS else GERMAN_BLACK2_DSI
        if version == Game.WHITE2:
            return GERMAN_WHITE2 if ds_type == DSType.DS else GERMAN_WHITE2_DSI
    if language == Language.SPANISH:
        if version == Game.BLACK:
            return SPANISH_BLACK if ds_type == DSType.DS else SPANISH_BLACK_DSI
        if version == Game.WHITE:
            return SPANISH_WHITE if ds_type == DSType.DS else SPANISH_WHITE_DSI
        if version == Game.BLACK2:
            return SPANISH_BLACK2 if ds_type == DSType.DS else SPANISH_BLACK2_DSI
        if version == Game.WHITE2:
            return SPANISH_WHITE2 if ds_type == DSType.DS else SPANISH_WHITE2_DSI
    if language == Language.FRENCH:
        if version == Game.BLACK:
            return FRENCH_BLACK if ds_type == DSType.DS else FRENCH_BLACK_DSI
        if version == Game.WHITE:
            return FRENCH_WHITE if ds_type == DSType.DS else FRENCH_WHITE_DSI
        if version == Game.BLACK2:
            return FRENCH_BLACK2 if ds_type == DSType.DS else FRENCH_BLACK2_DSI
        if version == Game.WHITE2:
            return FRENCH_WHITE2 if ds_type == DSType.DS else FRENCH_WHITE2_DSI
    if language == Language.ITALIAN:
        if version == Game.BLACK:
            return ITALIAN_BLACK if ds_type == DSType.DS else ITALIAN_BLACK_DSI
        if version == Game.WHITE:
            return ITALIAN_WHITE if ds_type == DSType.DS else ITALIAN_WHITE_DSI
        if version == Game.BLACK2:
            return ITALIAN_BLACK2 if ds_type == DSType.DS else ITALIAN_BLACK2_DSI
        if version == Game.WHITE2:
            return ITALIAN_WHITE2 if ds_type == DSType.DS else ITALIAN_WHITE2_DSI
    if language == Language.KOREAN:
        if version == Game.BLACK:
            return KOREAN_BLACK if ds_type == DSType.DS else KOREAN_BLACK_DSI
        if version == Game.WHITE:
            return KOREAN_WHITE if ds_type == DSType.DS else KOREAN_WHITE_DSI
        if version == Game.BLACK2:
            return KOREAN_BLACK2 if ds_type == DSType.DS else KOREAN_BLACK2_DSI
        if version == Game.WHITE2:
            return KOREAN_WHITE2 if ds_type == DSType.DS else KOREAN_WHITE2_DSI
    return np.zeros(5, dtype=np.uint32)
``` -/
def get_nazo : Fun where
  params := ["version", "language", "ds_type"]
  args := some [u32, u8, u8]
  body :=
    (.seq
     (.ite (.cmp .eq (.var "language") (.var "Language.ENGLISH"))
      (.seq
       (.ite (.cmp .eq (.var "version") (.var "Game.BLACK"))
        (.ret (.ite (.cmp .eq (.var "ds_type") (.var "DSType.DS")) (.var "ENGLISH_BLACK") (.var "ENGLISH_BLACK_DSI")))
        .pass)
      (.seq
       (.ite (.cmp .eq (.var "version") (.var "Game.WHITE"))
        (.ret (.ite (.cmp .eq (.var "ds_type") (.var "DSType.DS")) (.var "ENGLISH_WHITE") (.var "ENGLISH_WHITE_DSI")))
        .pass)
      (.seq
       (.ite (.cmp .eq (.var "version") (.var "Game.BLACK2"))
        (.ret (.ite (.cmp .eq (.var "ds_type") (.var "DSType.DS")) (.var "ENGLISH_BLACK2") (.var "ENGLISH_BLACK2_DSI")))
        .pass)
      (.ite (.cmp .eq (.var "version") (.var "Game.WHITE2"))
       (.ret (.ite (.cmp .eq (.var "ds_type") (.var "DSType.DS")) (.var "ENGLISH_WHITE2") (.var "ENGLISH_WHITE2_DSI")))
       .pass))))
      .pass)
    (.seq
     (.ite (.cmp .eq (.var "language") (.var "Language.JAPANESE"))
      (.seq
       (.ite (.cmp .eq (.var "version") (.var "Game.BLACK"))
        (.ret (.ite (.cmp .eq (.var "ds_type") (.var "DSType.DS")) (.var "JAPANESE_BLACK") (.var "JAPANESE_BLACK_DSI")))
        .pass)
      (.seq
       (.ite (.cmp .eq (.var "version") (.var "Game.WHITE"))
        (.ret (.ite (.cmp .eq (.var "ds_type") (.var "DSType.DS")) (.var "JAPANESE_WHITE") (.var "JAPANESE_WHITE_DSI")))
        .pass)
      (.seq
       (.ite (.cmp .eq (.var "version") (.var "Game.BLACK2"))
        (.ret (.ite (.cmp .eq (.var "ds_type") (.var "DSType.DS")) (.var "JAPANESE_BLACK2") (.var "JAPANESE_BLACK2_DSI")))
        .pass)
      (.ite (.cmp .eq (.var "version") (.var "Game.WHITE2"))
       (.ret (.ite (.cmp .eq (.var "ds_type") (.var "DSType.DS")) (.var "JAPANESE_WHITE2") (.var "JAPANESE_WHITE2_DSI")))
       .pass))))
      .pass)
    (.seq
     (.ite (.cmp .eq (.var "language") (.var "Language.GERMAN"))
      (.seq
       (.ite (.cmp .eq (.var "version") (.var "Game.BLACK"))
        (.ret (.ite (.cmp .eq (.var "ds_type") (.var "DSType.DS")) (.var "GERMAN_BLACK") (.var "GERMAN_BLACK_DSI")))
        .pass)
      (.seq
       (.ite (.cmp .eq (.var "version") (.var "Game.WHITE"))
        (.ret (.ite (.cmp .eq (.var "ds_type") (.var "DSType.DS")) (.var "GERMAN_WHITE") (.var "GERMAN_WHITE_DSI")))
        .pass)
      (.seq
       (.ite (.cmp .eq (.var "version") (.var "Game.BLACK2"))
        (.ret (.ite (.cmp .eq (.var "ds_type") (.var "DSType.DS")) (.var "GERMAN_BLACK2") (.var "GERMAN_BLACK2_DSI")))
        .pass)
      (.ite (.cmp .eq (.var "version") (.var "Game.WHITE2"))
       (.ret (.ite (.cmp .eq (.var "ds_type") (.var "DSType.DS")) (.var "GERMAN_WHITE2") (.var "GERMAN_WHITE2_DSI")))
       .pass))))
      .pass)
    (.seq
     (.ite (.cmp .eq (.var "language") (.var "Language.SPANISH"))
      (.seq
       (.ite (.cmp .eq (.var "version") (.var "Game.BLACK"))
        (.ret (.ite (.cmp .eq (.var "ds_type") (.var "DSType.DS")) (.var "SPANISH_BLACK") (.var "SPANISH_BLACK_DSI")))
        .pass)
      (.seq
       (.ite (.cmp .eq (.var "version") (.var "Game.WHITE"))
        (.ret (.ite (.cmp .eq (.var "ds_type") (.var "DSType.DS")) (.var "SPANISH_WHITE") (.var "SPANISH_WHITE_DSI")))
        .pass)
      (.seq
       (.ite (.cmp .eq (.var "version") (.var "Game.BLACK2"))
        (.ret (.ite (.cmp .eq (.var "ds_type") (.var "DSType.DS")) (.var "SPANISH_BLACK2") (.var "SPANISH_BLACK2_DSI")))
        .pass)
      (.ite (.cmp .eq (.var "version") (.var "Game.WHITE2"))
       (.ret (.ite (.cmp .eq (.var "ds_type") (.var "DSType.DS")) (.var "SPANISH_WHITE2") (.var "SPANISH_WHITE2_DSI")))
       .pass))))
      .pass)
    (.seq
     (.ite (.cmp .eq (.var "language") (.var "Language.FRENCH"))
      (.seq
       (.ite (.cmp .eq (.var "version") (.var "Game.BLACK"))
        (.ret (.ite (.cmp .eq (.var "ds_type") (.var "DSType.DS")) (.var "FRENCH_BLACK") (.var "FRENCH_BLACK_DSI")))
        .pass)
      (.seq
       (.ite (.cmp .eq (.var "version") (.var "Game.WHITE"))
        (.ret (.ite (.cmp .eq (.var "ds_type") (.var "DSType.DS")) (.var "FRENCH_WHITE") (.var "FRENCH_WHITE_DSI")))
        .pass)
      (.seq
       (.ite (.cmp .eq (.var "version") (.var "Game.BLACK2"))
        (.ret (.ite (.cmp .eq (.var "ds_type") (.var "DSType.DS")) (.var "FRENCH_BLACK2") (.var "FRENCH_BLACK2_DSI")))
        .pass)
      (.ite (.cmp .eq (.var "version") (.var "Game.WHITE2"))
       (.ret (.ite (.cmp .eq (.var "ds_type") (.var "DSType.DS")) (.var "FRENCH_WHITE2") (.var "FRENCH_WHITE2_DSI")))
       .pass))))
      .pass)
    (.seq
     (.ite (.cmp .eq (.var "language") (.var "Language.ITALIAN"))
      (.seq
       (.ite (.cmp .eq (.var "version") (.var "Game.BLACK"))
        (.ret (.ite (.cmp .eq (.var "ds_type") (.var "DSType.DS")) (.var "ITALIAN_BLACK") (.var "ITALIAN_BLACK_DSI")))
        .pass)
      (.seq
       (.ite (.cmp .eq (.var "version") (.var "Game.WHITE"))
        (.ret (.ite (.cmp .eq (.var "ds_type") (.var "DSType.DS")) (.var "ITALIAN_WHITE") (.var "ITALIAN_WHITE_DSI")))
        .pass)
      (.seq
       (.ite (.cmp .eq (.var "version") (.var "Game.BLACK2"))
        (.ret (.ite (.cmp .eq (.var "ds_type") (.var "DSType.DS")) (.var "ITALIAN_BLACK2") (.var "ITALIAN_BLACK2_DSI")))
        .pass)
      (.ite (.cmp .eq (.var "version") (.var "Game.WHITE2"))
       (.ret (.ite (.cmp .eq (.var "ds_type") (.var "DSType.DS")) (.var "ITALIAN_WHITE2") (.var "ITALIAN_WHITE2_DSI")))
       .pass))))
      .pass)
    (.seq
     (.ite (.cmp .eq (.var "language") (.var "Language.KOREAN"))
      (.seq
       (.ite (.cmp .eq (.var "version") (.var "Game.BLACK"))
        (.ret (.ite (.cmp .eq (.var "ds_type") (.var "DSType.DS")) (.var "KOREAN_BLACK") (.var "KOREAN_BLACK_DSI")))
        .pass)
      (.seq
       (.ite (.cmp .eq (.var "version") (.var "Game.WHITE"))
        (.ret (.ite (.cmp .eq (.var "ds_type") (.var "DSType.DS")) (.var "KOREAN_WHITE") (.var "KOREAN_WHITE_DSI")))
        .pass)
      (.seq
       (.ite (.cmp .eq (.var "version") (.var "Game.BLACK2"))
        (.ret (.ite (.cmp .eq (.var "ds_type") (.var "DSType.DS")) (.var "KOREAN_BLACK2") (.var "KOREAN_BLACK2_DSI")))
        .pass)
      (.ite (.cmp .eq (.var "version") (.var "Game.WHITE2"))
       (.ret (.ite (.cmp .eq (.var "ds_type") (.var "DSType.DS")) (.var "KOREAN_WHITE2") (.var "KOREAN_WHITE2_DSI")))
       .pass))))
      .pass)
    (.ret (.call "np.zeros.uint32" (.cons (.num 5) .nil))))))))))

/-- `sha1.py:202-234`
```
@optional_njit(
    return_type(
        unituple_type(np.uint32, 2),
        (
            np.uint32,
            np.uint32,
            np.uint32,
            np.uint32,
            np.uint32,
            np.uint32,
        ),
    ),
    locals={"t_val": np.uint32},
    inline="always",
)
def section1_calc(
    a_val: np.uint32,
    b_val: np.uint32,
    c_val: np.uint32,
    d_val: np.uint32,
    e_val: np.uint32,
    input_val: np.uint32,
) -> tuple[np.uint32, np.uint32]:
    """Hash calc for section 1: 0-19"""
    t_val = np.uint32(
        rotate_left_u32(a_val, 5)
        + ((b_val & c_val) | (~b_val & d_val))
        + e_val
        + np.uint32(0x5A827999)
        + input_val
    )
    b_val = rotate_right_u32(b_val, 2)
    return t_val, b_val
``` -/
def section1_calc : Fun where
  params := ["a_val", "b_val", "c_val", "d_val", "e_val", "input_val"]
  args := some [u32, u32, u32, u32, u32, u32]
  results := some [u32, u32]
  locals := [("t_val", u32)]
  body :=
    (.seq
     (.assign (.var "t_val") (.cast u32 (.bin .add (.bin .add (.bin .add (.bin .add (.call "rotate_left_u32" (.cons (.var "a_val") (.cons (.num 5) .nil))) (.bin .or (.bin .and (.var "b_val") (.var "c_val")) (.bin .and (.inv (.var "b_val")) (.var "d_val")))) (.var "e_val")) (.cast u32 (.num 0x5A827999))) (.var "input_val"))))
    (.seq
     (.assign (.var "b_val") (.call "rotate_right_u32" (.cons (.var "b_val") (.cons (.num 2) .nil))))
    (.ret (.cons (.var "t_val") (.cons (.var "b_val") .nil)))))

/-- `sha1.py:237-269`
```
@optional_njit(
    return_type(
        unituple_type(np.uint32, 2),
        (
            np.uint32,
            np.uint32,
            np.uint32,
            np.uint32,
            np.uint32,
            np.uint32,
        ),
    ),
    locals={"t_val": np.uint32},
    inline="always",
)
def section2_calc(
    a_val: np.uint32,
    b_val: np.uint32,
    c_val: np.uint32,
    d_val: np.uint32,
    e_val: np.uint32,
    input_val: np.uint32,
) -> tuple[np.uint32, np.uint32]:
    """Hash calc for section 2: 20-39"""
    t_val = (
        rotate_left_u32(a_val, 5)
        + (b_val ^ c_val ^ d_val)
        + e_val
        + np.uint32(0x6ED9EBA1)
        + input_val
    )
    b_val = rotate_right_u32(b_val, 2)
    return t_val, b_val
``` -/
def section2_calc : Fun where
  params := ["a_val", "b_val", "c_val", "d_val", "e_val", "input_val"]
  args := some [u32, u32, u32, u32, u32, u32]
  results := some [u32, u32]
  locals := [("t_val", u32)]
  body :=
    (.seq
     (.assign (.var "t_val") (.bin .add (.bin .add (.bin .add (.bin .add (.call "rotate_left_u32" (.cons (.var "a_val") (.cons (.num 5) .nil))) (.bin .xor (.bin .xor (.var "b_val") (.var "c_val")) (.var "d_val"))) (.var "e_val")) (.cast u32 (.num 0x6ED9EBA1))) (.var "input_val")))
    (.seq
     (.assign (.var "b_val") (.call "rotate_right_u32" (.cons (.var "b_val") (.cons (.num 2) .nil))))
    (.ret (.cons (.var "t_val") (.cons (.var "b_val") .nil)))))

/-- `sha1.py:272-304`
```
@optional_njit(
    return_type(
        unituple_type(np.uint32, 2),
        (
            np.uint32,
            np.uint32,
            np.uint32,
            np.uint32,
            np.uint32,
            np.uint32,
        ),
    ),
    locals={"t_val": np.uint32},
    inline="always",
)
def section3_calc(
    a_val: np.uint32,
    b_val: np.uint32,
    c_val: np.uint32,
    d_val: np.uint32,
    e_val: np.uint32,
    input_val: np.uint32,
) -> tuple[np.uint32, np.uint32]:
    """Hash calc for section 3: 40-59"""
    t_val = (
        rotate_left_u32(a_val, 5)
        + ((b_val & c_val) | ((b_val | c_val) & d_val))
        + e_val
        + np.uint32(0x8F1BBCDC)
        + input_val
    )
    b_val = rotate_right_u32(b_val, 2)
    return t_val, b_val
``` -/
def section3_calc : Fun where
  params := ["a_val", "b_val", "c_val", "d_val", "e_val", "input_val"]
  args := some [u32, u32, u32, u32, u32, u32]
  results := some [u32, u32]
  locals := [("t_val", u32)]
  body :=
    (.seq
     (.assign (.var "t_val") (.bin .add (.bin .add (.bin .add (.bin .add (.call "rotate_left_u32" (.cons (.var "a_val") (.cons (.num 5) .nil))) (.bin .or (.bin .and (.var "b_val") (.var "c_val")) (.bin .and (.bin .or (.var "b_val") (.var "c_val")) (.var "d_val")))) (.var "e_val")) (.cast u32 (.num 0x8F1BBCDC))) (.var "input_val")))
    (.seq
     (.assign (.var "b_val") (.call "rotate_right_u32" (.cons (.var "b_val") (.cons (.num 2) .nil))))
    (.ret (.cons (.var "t_val") (.cons (.var "b_val") .nil)))))

/-- `sha1.py:307-339`
```
@optional_njit(
    return_type(
        unituple_type(np.uint32, 2),
        (
            np.uint32,
            np.uint32,
            np.uint32,
            np.uint32,
            np.uint32,
            np.uint32,
        ),
    ),
    locals={"t_val": np.uint32},
    inline="always",
)
def section4_calc(
    a_val: np.uint32,
    b_val: np.uint32,
    c_val: np.uint32,
    d_val: np.uint32,
    e_val: np.uint32,
    input_val: np.uint32,
) -> tuple[np.uint32, np.uint32]:
    """Hash calc for section 4: 60-79"""
    t_val = (
        rotate_left_u32(a_val, 5)
        + (b_val ^ c_val ^ d_val)
        + e_val
        + np.uint32(0xCA62C1D6)
        + input_val
    )
    b_val = rotate_right_u32(b_val, 2)
    return t_val, b_val
``` -/
def section4_calc : Fun where
  params := ["a_val", "b_val", "c_val", "d_val", "e_val", "input_val"]
  args := some [u32, u32, u32, u32, u32, u32]
  results := some [u32, u32]
  locals := [("t_val", u32)]
  body :=
    (.seq
     (.assign (.var "t_val") (.bin .add (.bin .add (.bin .add (.bin .add (.call "rotate_left_u32" (.cons (.var "a_val") (.cons (.num 5) .nil))) (.bin .xor (.bin .xor (.var "b_val") (.var "c_val")) (.var "d_val"))) (.var "e_val")) (.cast u32 (.num 0xCA62C1D6))) (.var "input_val")))
    (.seq
     (.assign (.var "b_val") (.call "rotate_right_u32" (.cons (.var "b_val") (.cons (.num 2) .nil))))
    (.ret (.cons (.var "t_val") (.cons (.var "b_val") .nil)))))

/-- `sha1.py:349-384`
```
    def __init__(
        self,
        version: Game,
        language: Language,
        ds_type: DSType,
        mac: np.uint64,
        soft_reset: bool,
        v_frame: np.uint8,
        gx_state: np.uint8,
    ) -> None:
        mac = np.uint64(mac)
        v_frame = np.uint8(v_frame)
        gx_state = np.uint8(gx_state)
        self.ds_type = np.uint8(ds_type)

        self.data = np.empty(80, dtype=np.uint32)
        data = self.data
        data[:5] = get_nazo(version, language, ds_type)
        data[6] = mac & np.uint32(0xFFFF)
        if soft_reset:
            data[6] ^= np.uint32(0x1000000)
        data[7] = (
            np.uint32(mac >> np.uint64(16))
            ^ (np.uint32(v_frame) << np.uint32(24))
            ^ np.uint32(gx_state)
        )

        # set values
        data[10] = 0
        data[11] = 0
        data[13] = 0x80000000
        data[14] = 0
        data[15] = 0x1A0

        # precompute data[18]
        data[18] = rotate_left_u32(data[15] ^ data[10] ^ data[4] ^ data[2], 1)
``` -/
def SHA1.__init__ : Fun where
  params := ["version", "language", "ds_type", "mac", "soft_reset", "v_frame", "gx_state"]
  body :=
    (.seq
     (.assign (.var "mac") (.cast u64 (.var "mac")))
    (.seq
     (.assign (.var "v_frame") (.cast u8 (.var "v_frame")))
    (.seq
     (.assign (.var "gx_state") (.cast u8 (.var "gx_state")))
    (.seq
     (.assign (.self "ds_type") (.cast u8 (.var "ds_type")))
    (.seq
     (.assign (.self "data") (.call "np.empty.uint32" (.cons (.num 0x50) .nil)))
    (.seq
     (.assign (.var "data") (.self "data"))
    (.seq
     (.expr (.call "[:]=" (.cons (.var "data") (.cons (.num 5) (.cons (.call "get_nazo" (.cons (.var "version") (.cons (.var "language") (.cons (.var "ds_type") .nil)))) .nil)))))
    (.seq
     (.assign (.item (.var "data") (.num 6)) (.bin .and (.var "mac") (.cast u32 (.num 0xFFFF))))
    (.seq
     (.ite (.var "soft_reset")
      (.aug .xor (.item (.var "data") (.num 6)) (.cast u32 (.num 0x1000000)))
      .pass)
    (.seq
     (.assign (.item (.var "data") (.num 7)) (.bin .xor (.bin .xor (.cast u32 (.bin .shr (.var "mac") (.cast u64 (.num 0x10)))) (.bin .shl (.cast u32 (.var "v_frame")) (.cast u32 (.num 0x18)))) (.cast u32 (.var "gx_state"))))
    (.seq
     (.assign (.item (.var "data") (.num 0xA)) (.num 0))
    (.seq
     (.assign (.item (.var "data") (.num 0xB)) (.num 0))
    (.seq
     (.assign (.item (.var "data") (.num 0xD)) (.num 0x80000000))
    (.seq
     (.assign (.item (.var "data") (.num 0xE)) (.num 0))
    (.seq
     (.assign (.item (.var "data") (.num 0xF)) (.num 0x1A0))
    (.assign (.item (.var "data") (.num 0x12)) (.call "rotate_left_u32" (.cons (.bin .xor (.bin .xor (.bin .xor (.item (.var "data") (.num 0xF)) (.item (.var "data") (.num 0xA))) (.item (.var "data") (.num 4))) (.item (.var "data") (.num 2))) (.cons (.num 1) .nil)))))))))))))))))))

/-- `sha1.py:386-487`
```
    def hash_seed(self, alpha: np.ndarray[np.uint32, 5]) -> np.uint64:
        """Compute hash based on precomputed alpha"""
        data = self.data
        a_val = alpha[0]
        b_val = alpha[1]
        c_val = alpha[2]
        d_val = alpha[3]
        e_val = alpha[4]
        self.calc_w(17)
        self.calc_w(20)
        self.calc_w(23)
        self.calc_w(25)
        self.calc_w(26)
        self.calc_w(28)
        self.calc_w(29)
        self.calc_w(31)
        for i in range(32, 80):
            self.calc_w_simd(i)

        t_val, b_val = section1_calc(a_val, b_val, c_val, d_val, e_val, data[9])
        e_val, a_val = section1_calc(t_val, a_val, b_val, c_val, d_val, data[10])
        d_val, t_val = section1_calc(e_val, t_val, a_val, b_val, c_val, data[11])
        c_val, e_val = section1_calc(d_val, e_val, t_val, a_val, b_val, data[12])
        b_val, d_val = section1_calc(c_val, d_val, e_val, t_val, a_val, data[13])
        a_val, c_val = section1_calc(b_val, c_val, d_val, e_val, t_val, data[14])
        t_val, b_val = section1_calc(a_val, b_val, c_val, d_val, e_val, data[15])
        e_val, a_val = section1_calc(t_val, a_val, b_val, c_val, d_val, data[16])
        d_val, t_val = section1_calc(e_val, t_val, a_val, b_val, c_val, data[17])
        c_val, e_val = section1_calc(d_val, e_val, t_val, a_val, b_val, data[18])
        b_val, d_val = section1_calc(c_val, d_val, e_val, t_val, a_val, data[19])

        a_val, c_val = section2_calc(b_val, c_val, d_val, e_val, t_val, data[20])
        t_val, b_val = section2_calc(a_val, b_val, c_val, d_val, e_val, data[21])
        e_val, a_val = section2_calc(t_val, a_val, b_val, c_val, d_val, data[22])
        d_val, t_val = section2_calc(e_val, t_val, a_val, b_val, c_val, data[23])
        c_val, e_val = section2_calc(d_val, e_val, t_val, a_val, b_val, data[24])
        b_val, d_val = section2_calc(c_val, d_val, e_val, t_val, a_val, data[25])
        a_val, c_val = section2_calc(b_val, c_val, d_val, e_val, t_val, data[26])
        t_val, b_val = section2_calc(a_val, b_val, c_val, d_val, e_val, data[27])
        e_val, a_val = section2_calc(t_val, a_val, b_val, c_val, d_val, data[28])
        d_val, t_val = section2_calc(e_val, t_val, a_val, b_val, c_val, data[29])
        c_val, e_val = section2_calc(d_val, e_val, t_val, a_val, b_val, data[30])
        b_val, d_val = section2_calc(c_val, d_val, e_val, t_val, a_val, data[31])
        a_val, c_val = section2_calc(b_val, c_val, d_val, e_val, t_val, data[32])
        t_val, b_val = section2_calc(a_val, b_val, c_val, d_val, e_val, data[33])
        e_val, a_val = section2_calc(t_val, a_val, b_val, c_val, d_val, data[34])
        d_val, t_val = section2_calc(e_val, t_val, a_val, b_val, c_val, data[35])
        c_val, e_val = section2_calc(d_val, e_val, t_val, a_val, b_val, data[36])
        b_val, d_val = section2_calc(c_val, d_val, e_val, t_val, a_val, data[37])
        a_val, c_val = section2_calc(b_val, c_val, d_val, e_val, t_val, data[38])
        t_val, b_val = section2_calc(a_val, b_val, c_val, d_val, e_val, data[39])

        e_val, a_val = section3_calc(t_val, a_val, b_val, c_val, d_val, data[40])
        d_val, t_val = section3_calc(e_val, t_val, a_val, b_val, c_val, data[41])
        c_val, e_val = section3_calc(d_val, e_val, t_val, a_val, b_val, data[42])
        b_val, d_val = section3_calc(c_val, d_val, e_val, t_val, a_val, data[43])
        a_val, c_val = section3_calc(b_val, c_val, d_val, e_val, t_val, data[44])
        t_val, b_val = section3_calc(a_val, b_val, c_val, d_val, e_val, data[45])
        e_val, a_val = section3_calc(t_val, a_val, b_val, c_val, d_val, data[46])
        d_val, t_val = section3_calc(e_val, t_val, a_val, b_val, c_val, data[47])
        c_val, e_val = section3_calc(d_val, e_val, t_val, a_val, b_val, data[48])
        b_val, d_val = section3_calc(c_val, d_val, e_val, t_val, a_val, data[49])
        a_val, c_val = section3_calc(b_val, c_val, d_val, e_val, t_val, data[50])
        t_val, b_val = section3_calc(a_val, b_val, c_val, d_val, e_val, data[51])
        e_val, a_val = section3_calc(t_val, a_val, b_val, c_val, d_val, data[52])
        d_val, t_val = section3_calc(e_val, t_val, a_val, b_val, c_val, data[53])
        c_val, e_val = section3_calc(d_val, e_val, t_val, a_val, b_val, data[54])
        b_val, d_val = section3_calc(c_val, d_val, e_val, t_val, a_val, data[55])
        a_val, c_val = section3_calc(b_val, c_val, d_val, e_val, t_val, data[56])
        t_val, b_val = section3_calc(a_val, b_val, c_val, d_val, e_val, data[57])
        e_val, a_val = section3_calc(t_val, a_val, b_val, c_val, d_val, data[58])
        d_val, t_val = section3_calc(e_val, t_val, a_val, b_val, c_val, data[59])

        c_val, e_val = section4_calc(d_val, e_val, t_val, a_val, b_val, data[60])
        b_val, d_val = section4_calc(c_val, d_val, e_val, t_val, a_val, data[61])
        a_val, c_val = section4_calc(b_val, c_val, d_val, e_val, t_val, data[62])
        t_val, b_val = section4_calc(a_val, b_val, c_val, d_val, e_val, data[63])
        e_val, a_val = section4_calc(t_val, a_val, b_val, c_val, d_val, data[64])
        d_val, t_val = section4_calc(e_val, t_val, a_val, b_val, c_val, data[65])
        c_val, e_val = section4_calc(d_val, e_val, t_val, a_val, b_val, data[66])
        b_val, d_val = section4_calc(c_val, d_val, e_val, t_val, a_val, data[67])
        a_val, c_val = section4_calc(b_val, c_val, d_val, e_val, t_val, data[68])
        t_val, b_val = section4_calc(a_val, b_val, c_val, d_val, e_val, data[69])
        e_val, a_val = section4_calc(t_val, a_val, b_val, c_val, d_val, data[70])
        d_val, t_val = section4_calc(e_val, t_val, a_val, b_val, c_val, data[71])
        c_val, e_val = section4_calc(d_val, e_val, t_val, a_val, b_val, data[72])
        b_val, d_val = section4_calc(c_val, d_val, e_val, t_val, a_val, data[73])
        a_val, c_val = section4_calc(b_val, c_val, d_val, e_val, t_val, data[74])
        t_val, b_val = section4_calc(a_val, b_val, c_val, d_val, e_val, data[75])
        e_val, a_val = section4_calc(t_val, a_val, b_val, c_val, d_val, data[76])
        d_val, t_val = section4_calc(e_val, t_val, a_val, b_val, c_val, data[77])
        c_val, e_val = section4_calc(d_val, e_val, t_val, a_val, b_val, data[78])
        b_val, d_val = section4_calc(c_val, d_val, e_val, t_val, a_val, data[79])

        part1 = change_endian_u32(b_val + np.uint32(0x67452301))
        part2 = change_endian_u32(c_val + np.uint32(0xEFCDAB89))

        seed = np.uint64(
            np.uint64(np.uint64(part2) << np.uint64(32)) | np.uint64(part1)
        )

        return BWRNG(seed).next()
``` -/
def SHA1.hash_seed : Fun where
  params := ["alpha"]
  body :=
    (.seq
     (.assign (.var "data") (.self "data"))
    (.seq
     (.assign (.var "a_val") (.item (.var "alpha") (.num 0)))
    (.seq
     (.assign (.var "b_val") (.item (.var "alpha") (.num 1)))
    (.seq
     (.assign (.var "c_val") (.item (.var "alpha") (.num 2)))
    (.seq
     (.assign (.var "d_val") (.item (.var "alpha") (.num 3)))
    (.seq
     (.assign (.var "e_val") (.item (.var "alpha") (.num 4)))
    (.seq
     (.expr (.meth "calc_w" (.cons (.num 0x11) .nil)))
    (.seq
     (.expr (.meth "calc_w" (.cons (.num 0x14) .nil)))
    (.seq
     (.expr (.meth "calc_w" (.cons (.num 0x17) .nil)))
    (.seq
     (.expr (.meth "calc_w" (.cons (.num 0x19) .nil)))
    (.seq
     (.expr (.meth "calc_w" (.cons (.num 0x1A) .nil)))
    (.seq
     (.expr (.meth "calc_w" (.cons (.num 0x1C) .nil)))
    (.seq
     (.expr (.meth "calc_w" (.cons (.num 0x1D) .nil)))
    (.seq
     (.expr (.meth "calc_w" (.cons (.num 0x1F) .nil)))
    (.seq
     (.for "i" (.call "range" (.cons (.num 0x20) (.cons (.num 0x50) .nil)))
      (.expr (.meth "calc_w_simd" (.cons (.var "i") .nil))))
    (.seq
     (.assign (.cons (.var "t_val") (.cons (.var "b_val") .nil)) (.call "section1_calc" (.cons (.var "a_val") (.cons (.var "b_val") (.cons (.var "c_val") (.cons (.var "d_val") (.cons (.var "e_val") (.cons (.item (.var "data") (.num 9)) .nil))))))))
    (.seq
     (.assign (.cons (.var "e_val") (.cons (.var "a_val") .nil)) (.call "section1_calc" (.cons (.var "t_val") (.cons (.var "a_val") (.cons (.var "b_val") (.cons (.var "c_val") (.cons (.var "d_val") (.cons (.item (.var "data") (.num 0xA)) .nil))))))))
    (.seq
     (.assign (.cons (.var "d_val") (.cons (.var "t_val") .nil)) (.call "section1_calc" (.cons (.var "e_val") (.cons (.var "t_val") (.cons (.var "a_val") (.cons (.var "b_val") (.cons (.var "c_val") (.cons (.item (.var "data") (.num 0xB)) .nil))))))))
    (.seq
     (.assign (.cons (.var "c_val") (.cons (.var "e_val") .nil)) (.call "section1_calc" (.cons (.var "d_val") (.cons (.var "e_val") (.cons (.var "t_val") (.cons (.var "a_val") (.cons (.var "b_val") (.cons (.item (.var "data") (.num 0xC)) .nil))))))))
    (.seq
     (.assign (.cons (.var "b_val") (.cons (.var "d_val") .nil)) (.call "section1_calc" (.cons (.var "c_val") (.cons (.var "d_val") (.cons (.var "e_val") (.cons (.var "t_val") (.cons (.var "a_val") (.cons (.item (.var "data") (.num 0xD)) .nil))))))))
    (.seq
     (.assign (.cons (.var "a_val") (.cons (.var "c_val") .nil)) (.call "section1_calc" (.cons (.var "b_val") (.cons (.var "c_val") (.cons (.var "d_val") (.cons (.var "e_val") (.cons (.var "t_val") (.cons (.item (.var "data") (.num 0xE)) .nil))))))))
    (.seq
     (.assign (.cons (.var "t_val") (.cons (.var "b_val") .nil)) (.call "section1_calc" (.cons (.var "a_val") (.cons (.var "b_val") (.cons (.var "c_val") (.cons (.var "d_val") (.cons (.var "e_val") (.cons (.item (.var "data") (.num 0xF)) .nil))))))))
    (.seq
     (.assign (.cons (.var "e_val") (.cons (.var "a_val") .nil)) (.call "section1_calc" (.cons (.var "t_val") (.cons (.var "a_val") (.cons (.var "b_val") (.cons (.var "c_val") (.cons (.var "d_val") (.cons (.item (.var "data") (.num 0x10)) .nil))))))))
    (.seq
     (.assign (.cons (.var "d_val") (.cons (.var "t_val") .nil)) (.call "section1_calc" (.cons (.var "e_val") (.cons (.var "t_val") (.cons (.var "a_val") (.cons (.var "b_val") (.cons (.var "c_val") (.cons (.item (.var "data") (.num 0x11)) .nil))))))))
    (.seq
     (.assign (.cons (.var "c_val") (.cons (.var "e_val") .nil)) (.call "section1_calc" (.cons (.var "d_val") (.cons (.var "e_val") (.cons (.var "t_val") (.cons (.var "a_val") (.cons (.var "b_val") (.cons (.item (.var "data") (.num 0x12)) .nil))))))))
    (.seq
     (.assign (.cons (.var "b_val") (.cons (.var "d_val") .nil)) (.call "section1_calc" (.cons (.var "c_val") (.cons (.var "d_val") (.cons (.var "e_val") (.cons (.var "t_val") (.cons (.var "a_val") (.cons (.item (.var "data") (.num 0x13)) .nil))))))))
    (.seq
     (.assign (.cons (.var "a_val") (.cons (.var "c_val") .nil)) (.call "section2_calc" (.cons (.var "b_val") (.cons (.var "c_val") (.cons (.var "d_val") (.cons (.var "e_val") (.cons (.var "t_val") (.cons (.item (.var "data") (.num 0x14)) .nil))))))))
    (.seq
     (.assign (.cons (.var "t_val") (.cons (.var "b_val") .nil)) (.call "section2_calc" (.cons (.var "a_val") (.cons (.var "b_val") (.cons (.var "c_val") (.cons (.var "d_val") (.cons (.var "e_val") (.cons (.item (.var "data") (.num 0x15)) .nil))))))))
    (.seq
     (.assign (.cons (.var "e_val") (.cons (.var "a_val") .nil)) (.call "section2_calc" (.cons (.var "t_val") (.cons (.var "a_val") (.cons (.var "b_val") (.cons (.var "c_val") (.cons (.var "d_val") (.cons (.item (.var "data") (.num 0x16)) .nil))))))))
    (.seq
     (.assign (.cons (.var "d_val") (.cons (.var "t_val") .nil)) (.call "section2_calc" (.cons (.var "e_val") (.cons (.var "t_val") (.cons (.var "a_val") (.cons (.var "b_val") (.cons (.var "c_val") (.cons (.item (.var "data") (.num 0x17)) .nil))))))))
    (.seq
     (.assign (.cons (.var "c_val") (.cons (.var "e_val") .nil)) (.call "section2_calc" (.cons (.var "d_val") (.cons (.var "e_val") (.cons (.var "t_val") (.cons (.var "a_val") (.cons (.var "b_val") (.cons (.item (.var "data") (.num 0x18)) .nil))))))))
    (.seq
     (.assign (.cons (.var "b_val") (.cons (.var "d_val") .nil)) (.call "section2_calc" (.cons (.var "c_val") (.cons (.var "d_val") (.cons (.var "e_val") (.cons (.var "t_val") (.cons (.var "a_val") (.cons (.item (.var "data") (.num 0x19)) .nil))))))))
    (.seq
     (.assign (.cons (.var "a_val") (.cons (.var "c_val") .nil)) (.call "section2_calc" (.cons (.var "b_val") (.cons (.var "c_val") (.cons (.var "d_val") (.cons (.var "e_val") (.cons (.var "t_val") (.cons (.item (.var "data") (.num 0x1A)) .nil))))))))
    (.seq
     (.assign (.cons (.var "t_val") (.cons (.var "b_val") .nil)) (.call "section2_calc" (.cons (.var "a_val") (.cons (.var "b_val") (.cons (.var "c_val") (.cons (.var "d_val") (.cons (.var "e_val") (.cons (.item (.var "data") (.num 0x1B)) .nil))))))))
    (.seq
     (.assign (.cons (.var "e_val") (.cons (.var "a_val") .nil)) (.call "section2_calc" (.cons (.var "t_val") (.cons (.var "a_val") (.cons (.var "b_val") (.cons (.var "c_val") (.cons (.var "d_val") (.cons (.item (.var "data") (.num 0x1C)) .nil))))))))
    (.seq
     (.assign (.cons (.var "d_val") (.cons (.var "t_val") .nil)) (.call "section2_calc" (.cons (.var "e_val") (.cons (.var "t_val") (.cons (.var "a_val") (.cons (.var "b_val") (.cons (.var "c_val") (.cons (.item (.var "data") (.num 0x1D)) .nil))))))))
    (.seq
     (.assign (.cons (.var "c_val") (.cons (.var "e_val") .nil)) (.call "section2_calc" (.cons (.var "d_val") (.cons (.var "e_val") (.cons (.var "t_val") (.cons (.var "a_val") (.cons (.var "b_val") (.cons (.item (.var "data") (.num 0x1E)) .nil))))))))
    (.seq
     (.assign (.cons (.var "b_val") (.cons (.var "d_val") .nil)) (.call "section2_calc" (.cons (.var "c_val") (.cons (.var "d_val") (.cons (.var "e_val") (.cons (.var "t_val") (.cons (.var "a_val") (.cons (.item (.var "data") (.num 0x1F)) .nil))))))))
    (.seq
     (.assign (.cons (.var "a_val") (.cons (.var "c_val") .nil)) (.call "section2_calc" (.cons (.var "b_val") (.cons (.var "c_val") (.cons (.var "d_val") (.cons (.var "e_val") (.cons (.var "t_val") (.cons (.item (.var "data") (.num 0x20)) .nil))))))))
    (.seq
     (.assign (.cons (.var "t_val") (.cons (.var "b_val") .nil)) (.call "section2_calc" (.cons (.var "a_val") (.cons (.var "b_val") (.cons (.var "c_val") (.cons (.var "d_val") (.cons (.var "e_val") (.cons (.item (.var "data") (.num 0x21)) .nil))))))))
    (.seq
     (.assign (.cons (.var "e_val") (.cons (.var "a_val") .nil)) (.call "section2_calc" (.cons (.var "t_val") (.cons (.var "a_val") (.cons (.var "b_val") (.cons (.var "c_val") (.cons (.var "d_val") (.cons (.item (.var "data") (.num 0x22)) .nil))))))))
    (.seq
     (.assign (.cons (.var "d_val") (.cons (.var "t_val") .nil)) (.call "section2_calc" (.cons (.var "e_val") (.cons (.var "t_val") (.cons (.var "a_val") (.cons (.var "b_val") (.cons (.var "c_val") (.cons (.item (.var "data") (.num 0x23)) .nil))))))))
    (.seq
     (.assign (.cons (.var "c_val") (.cons (.var "e_val") .nil)) (.call "section2_calc" (.cons (.var "d_val") (.cons (.var "e_val") (.cons (.var "t_val") (.cons (.var "a_val") (.cons (.var "b_val") (.cons (.item (.var "data") (.num 0x24)) .nil))))))))
    (.seq
     (.assign (.cons (.var "b_val") (.cons (.var "d_val") .nil)) (.call "section2_calc" (.cons (.var "c_val") (.cons (.var "d_val") (.cons (.var "e_val") (.cons (.var "t_val") (.cons (.var "a_val") (.cons (.item (.var "data") (.num 0x25)) .nil))))))))
    (.seq
     (.assign (.cons (.var "a_val") (.cons (.var "c_val") .nil)) (.call "section2_calc" (.cons (.var "b_val") (.cons (.var "c_val") (.cons (.var "d_val") (.cons (.var "e_val") (.cons (.var "t_val") (.cons (.item (.var "data") (.num 0x26)) .nil))))))))
    (.seq
     (.assign (.cons (.var "t_val") (.cons (.var "b_val") .nil)) (.call "section2_calc" (.cons (.var "a_val") (.cons (.var "b_val") (.cons (.var "c_val") (.cons (.var "d_val") (.cons (.var "e_val") (.cons (.item (.var "data") (.num 0x27)) .nil))))))))
    (.seq
     (.assign (.cons (.var "e_val") (.cons (.var "a_val") .nil)) (.call "section3_calc" (.cons (.var "t_val") (.cons (.var "a_val") (.cons (.var "b_val") (.cons (.var "c_val") (.cons (.var "d_val") (.cons (.item (.var "data") (.num 0x28)) .nil))))))))
    (.seq
     (.assign (.cons (.var "d_val") (.cons (.var "t_val") .nil)) (.call "section3_calc" (.cons (.var "e_val") (.cons (.var "t_val") (.cons (.var "a_val") (.cons (.var "b_val") (.cons (.var "c_val") (.cons (.item (.var "data") (.num 0x29)) .nil))))))))
    (.seq
     (.assign (.cons (.var "c_val") (.cons (.var "e_val") .nil)) (.call "section3_calc" (.cons (.var "d_val") (.cons (.var "e_val") (.cons (.var "t_val") (.cons (.var "a_val") (.cons (.var "b_val") (.cons (.item (.var "data") (.num 0x2A)) .nil))))))))
    (.seq
     (.assign (.cons (.var "b_val") (.cons (.var "d_val") .nil)) (.call "section3_calc" (.cons (.var "c_val") (.cons (.var "d_val") (.cons (.var "e_val") (.cons (.var "t_val") (.cons (.var "a_val") (.cons (.item (.var "data") (.num 0x2B)) .nil))))))))
    (.seq
     (.assign (.cons (.var "a_val") (.cons (.var "c_val") .nil)) (.call "section3_calc" (.cons (.var "b_val") (.cons (.var "c_val") (.cons (.var "d_val") (.cons (.var "e_val") (.cons (.var "t_val") (.cons (.item (.var "data") (.num 0x2C)) .nil))))))))
    (.seq
     (.assign (.cons (.var "t_val") (.cons (.var "b_val") .nil)) (.call "section3_calc" (.cons (.var "a_val") (.cons (.var "b_val") (.cons (.var "c_val") (.cons (.var "d_val") (.cons (.var "e_val") (.cons (.item (.var "data") (.num 0x2D)) .nil))))))))
    (.seq
     (.assign (.cons (.var "e_val") (.cons (.var "a_val") .nil)) (.call "section3_calc" (.cons (.var "t_val") (.cons (.var "a_val") (.cons (.var "b_val") (.cons (.var "c_val") (.cons (.var "d_val") (.cons (.item (.var "data") (.num 0x2E)) .nil))))))))
    (.seq
     (.assign (.cons (.var "d_val") (.cons (.var "t_val") .nil)) (.call "section3_calc" (.cons (.var "e_val") (.cons (.var "t_val") (.cons (.var "a_val") (.cons (.var "b_val") (.cons (.var "c_val") (.cons (.item (.var "data") (.num 0x2F)) .nil))))))))
    (.seq
     (.assign (.cons (.var "c_val") (.cons (.var "e_val") .nil)) (.call "section3_calc" (.cons (.var "d_val") (.cons (.var "e_val") (.cons (.var "t_val") (.cons (.var "a_val") (.cons (.var "b_val") (.cons (.item (.var "data") (.num 0x30)) .nil))))))))
    (.seq
     (.assign (.cons (.var "b_val") (.cons (.var "d_val") .nil)) (.call "section3_calc" (.cons (.var "c_val") (.cons (.var "d_val") (.cons (.var "e_val") (.cons (.var "t_val") (.cons (.var "a_val") (.cons (.item (.var "data") (.num 0x31)) .nil))))))))
    (.seq
     (.assign (.cons (.var "a_val") (.cons (.var "c_val") .nil)) (.call "section3_calc" (.cons (.var "b_val") (.cons (.var "c_val") (.cons (.var "d_val") (.cons (.var "e_val") (.cons (.var "t_val") (.cons (.item (.var "data") (.num 0x32)) .nil))))))))
    (.seq
     (.assign (.cons (.var "t_val") (.cons (.var "b_val") .nil)) (.call "section3_calc" (.cons (.var "a_val") (.cons (.var "b_val") (.cons (.var "c_val") (.cons (.var "d_val") (.cons (.var "e_val") (.cons (.item (.var "data") (.num 0x33)) .nil))))))))
    (.seq
     (.assign (.cons (.var "e_val") (.cons (.var "a_val") .nil)) (.call "section3_calc" (.cons (.var "t_val") (.cons (.var "a_val") (.cons (.var "b_val") (.cons (.var "c_val") (.cons (.var "d_val") (.cons (.item (.var "data") (.num 0x34)) .nil))))))))
    (.seq
     (.assign (.cons (.var "d_val") (.cons (.var "t_val") .nil)) (.call "section3_calc" (.cons (.var "e_val") (.cons (.var "t_val") (.cons (.var "a_val") (.cons (.var "b_val") (.cons (.var "c_val") (.cons (.item (.var "data") (.num 0x35)) .nil))))))))
    (.seq
     (.assign (.cons (.var "c_val") (.cons (.var "e_val") .nil)) (.call "section3_calc" (.cons (.var "d_val") (.cons (.var "e_val") (.cons (.var "t_val") (.cons (.var "a_val") (.cons (.var "b_val") (.cons (.item (.var "data") (.num 0x36)) .nil))))))))
    (.seq
     (.assign (.cons (.var "b_val") (.cons (.var "d_val") .nil)) (.call "section3_calc" (.cons (.var "c_val") (.cons (.var "d_val") (.cons (.var "e_val") (.cons (.var "t_val") (.cons (.var "a_val") (.cons (.item (.var "data") (.num 0x37)) .nil))))))))
    (.seq
     (.assign (.cons (.var "a_val") (.cons (.var "c_val") .nil)) (.call "section3_calc" (.cons (.var "b_val") (.cons (.var "c_val") (.cons (.var "d_val") (.cons (.var "e_val") (.cons (.var "t_val") (.cons (.item (.var "data") (.num 0x38)) .nil))))))))
    (.seq
     (.assign (.cons (.var "t_val") (.cons (.var "b_val") .nil)) (.call "section3_calc" (.cons (.var "a_val") (.cons (.var "b_val") (.cons (.var "c_val") (.cons (.var "d_val") (.cons (.var "e_val") (.cons (.item (.var "data") (.num 0x39)) .nil))))))))
    (.seq
     (.assign (.cons (.var "e_val") (.cons (.var "a_val") .nil)) (.call "section3_calc" (.cons (.var "t_val") (.cons (.var "a_val") (.cons (.var "b_val") (.cons (.var "c_val") (.cons (.var "d_val") (.cons (.item (.var "data") (.num 0x3A)) .nil))))))))
    (.seq
     (.assign (.cons (.var "d_val") (.cons (.var "t_val") .nil)) (.call "section3_calc" (.cons (.var "e_val") (.cons (.var "t_val") (.cons (.var "a_val") (.cons (.var "b_val") (.cons (.var "c_val") (.cons (.item (.var "data") (.num 0x3B)) .nil))))))))
    (.seq
     (.assign (.cons (.var "c_val") (.cons (.var "e_val") .nil)) (.call "section4_calc" (.cons (.var "d_val") (.cons (.var "e_val") (.cons (.var "t_val") (.cons (.var "a_val") (.cons (.var "b_val") (.cons (.item (.var "data") (.num 0x3C)) .nil))))))))
    (.seq
     (.assign (.cons (.var "b_val") (.cons (.var "d_val") .nil)) (.call "section4_calc" (.cons (.var "c_val") (.cons (.var "d_val") (.cons (.var "e_val") (.cons (.var "t_val") (.cons (.var "a_val") (.cons (.item (.var "data") (.num 0x3D)) .nil))))))))
    (.seq
     (.assign (.cons (.var "a_val") (.cons (.var "c_val") .nil)) (.call "section4_calc" (.cons (.var "b_val") (.cons (.var "c_val") (.cons (.var "d_val") (.cons (.var "e_val") (.cons (.var "t_val") (.cons (.item (.var "data") (.num 0x3E)) .nil))))))))
    (.seq
     (.assign (.cons (.var "t_val") (.cons (.var "b_val") .nil)) (.call "section4_calc" (.cons (.var "a_val") (.cons (.var "b_val") (.cons (.var "c_val") (.cons (.var "d_val") (.cons (.var "e_val") (.cons (.item (.var "data") (.num 0x3F)) .nil))))))))
    (.seq
     (.assign (.cons (.var "e_val") (.cons (.var "a_val") .nil)) (.call "section4_calc" (.cons (.var "t_val") (.cons (.var "a_val") (.cons (.var "b_val") (.cons (.var "c_val") (.cons (.var "d_val") (.cons (.item (.var "data") (.num 0x40)) .nil))))))))
    (.seq
     (.assign (.cons (.var "d_val") (.cons (.var "t_val") .nil)) (.call "section4_calc" (.cons (.var "e_val") (.cons (.var "t_val") (.cons (.var "a_val") (.cons (.var "b_val") (.cons (.var "c_val") (.cons (.item (.var "data") (.num 0x41)) .nil))))))))
    (.seq
     (.assign (.cons (.var "c_val") (.cons (.var "e_val") .nil)) (.call "section4_calc" (.cons (.var "d_val") (.cons (.var "e_val") (.cons (.var "t_val") (.cons (.var "a_val") (.cons (.var "b_val") (.cons (.item (.var "data") (.num 0x42)) .nil))))))))
    (.seq
     (.assign (.cons (.var "b_val") (.cons (.var "d_val") .nil)) (.call "section4_calc" (.cons (.var "c_val") (.cons (.var "d_val") (.cons (.var "e_val") (.cons (.var "t_val") (.cons (.var "a_val") (.cons (.item (.var "data") (.num 0x43)) .nil))))))))
    (.seq
     (.assign (.cons (.var "a_val") (.cons (.var "c_val") .nil)) (.call "section4_calc" (.cons (.var "b_val") (.cons (.var "c_val") (.cons (.var "d_val") (.cons (.var "e_val") (.cons (.var "t_val") (.cons (.item (.var "data") (.num 0x44)) .nil))))))))
    (.seq
     (.assign (.cons (.var "t_val") (.cons (.var "b_val") .nil)) (.call "section4_calc" (.cons (.var "a_val") (.cons (.var "b_val") (.cons (.var "c_val") (.cons (.var "d_val") (.cons (.var "e_val") (.cons (.item (.var "data") (.num 0x45)) .nil))))))))
    (.seq
     (.assign (.cons (.var "e_val") (.cons (.var "a_val") .nil)) (.call "section4_calc" (.cons (.var "t_val") (.cons (.var "a_val") (.cons (.var "b_val") (.cons (.var "c_val") (.cons (.var "d_val") (.cons (.item (.var "data") (.num 0x46)) .nil))))))))
    (.seq
     (.assign (.cons (.var "d_val") (.cons (.var "t_val") .nil)) (.call "section4_calc" (.cons (.var "e_val") (.cons (.var "t_val") (.cons (.var "a_val") (.cons (.var "b_val") (.cons (.var "c_val") (.cons (.item (.var "data") (.num 0x47)) .nil))))))))
    (.seq
     (.assign (.cons (.var "c_val") (.cons (.var "e_val") .nil)) (.call "section4_calc" (.cons (.var "d_val") (.cons (.var "e_val") (.cons (.var "t_val") (.cons (.var "a_val") (.cons (.var "b_val") (.cons (.item (.var "data") (.num 0x48)) .nil))))))))
    (.seq
     (.assign (.cons (.var "b_val") (.cons (.var "d_val") .nil)) (.call "section4_calc" (.cons (.var "c_val") (.cons (.var "d_val") (.cons (.var "e_val") (.cons (.var "t_val") (.cons (.var "a_val") (.cons (.item (.var "data") (.num 0x49)) .nil))))))))
    (.seq
     (.assign (.cons (.var "a_val") (.cons (.var "c_val") .nil)) (.call "section4_calc" (.cons (.var "b_val") (.cons (.var "c_val") (.cons (.var "d_val") (.cons (.var "e_val") (.cons (.var "t_val") (.cons (.item (.var "data") (.num 0x4A)) .nil))))))))
    (.seq
     (.assign (.cons (.var "t_val") (.cons (.var "b_val") .nil)) (.call "section4_calc" (.cons (.var "a_val") (.cons (.var "b_val") (.cons (.var "c_val") (.cons (.var "d_val") (.cons (.var "e_val") (.cons (.item (.var "data") (.num 0x4B)) .nil))))))))
    (.seq
     (.assign (.cons (.var "e_val") (.cons (.var "a_val") .nil)) (.call "section4_calc" (.cons (.var "t_val") (.cons (.var "a_val") (.cons (.var "b_val") (.cons (.var "c_val") (.cons (.var "d_val") (.cons (.item (.var "data") (.num 0x4C)) .nil))))))))
    (.seq
     (.assign (.cons (.var "d_val") (.cons (.var "t_val") .nil)) (.call "section4_calc" (.cons (.var "e_val") (.cons (.var "t_val") (.cons (.var "a_val") (.cons (.var "b_val") (.cons (.var "c_val") (.cons (.item (.var "data") (.num 0x4D)) .nil))))))))
    (.seq
     (.assign (.cons (.var "c_val") (.cons (.var "e_val") .nil)) (.call "section4_calc" (.cons (.var "d_val") (.cons (.var "e_val") (.cons (.var "t_val") (.cons (.var "a_val") (.cons (.var "b_val") (.cons (.item (.var "data") (.num 0x4E)) .nil))))))))
    (.seq
     (.assign (.cons (.var "b_val") (.cons (.var "d_val") .nil)) (.call "section4_calc" (.cons (.var "c_val") (.cons (.var "d_val") (.cons (.var "e_val") (.cons (.var "t_val") (.cons (.var "a_val") (.cons (.item (.var "data") (.num 0x4F)) .nil))))))))
    (.seq
     (.assign (.var "part1") (.call "change_endian_u32" (.cons (.bin .add (.var "b_val") (.cast u32 (.num 0x67452301))) .nil)))
    (.seq
     (.assign (.var "part2") (.call "change_endian_u32" (.cons (.bin .add (.var "c_val") (.cast u32 (.num 0xEFCDAB89))) .nil)))
    (.seq
     (.assign (.var "seed") (.cast u64 (.bin .or (.cast u64 (.bin .shl (.cast u64 (.var "part2")) (.cast u64 (.num 0x20)))) (.cast u64 (.var "part1")))))
    (.ret (.call "BWRNG.next" (.cons (.var "seed") .nil))))))))))))))))))))))))))))))))))))))))))))))))))))))))))))))))))))))))))))))))))))))))))))

/-- `sha1.py:489-525`
```
    def precompute(self) -> np.ndarray[np.uint32, 5]:
        """Precompute alpha values"""
        data = self.data

        a_val = np.uint32(0x67452301)
        b_val = np.uint32(0xEFCDAB89)
        c_val = np.uint32(0x98BADCFE)
        d_val = np.uint32(0x10325476)
        e_val = np.uint32(0xC3D2E1F0)

        t_val, b_val = section1_calc(a_val, b_val, c_val, d_val, e_val, data[0])
        e_val, a_val = section1_calc(t_val, a_val, b_val, c_val, d_val, data[1])
        d_val, t_val = section1_calc(e_val, t_val, a_val, b_val, c_val, data[2])
        c_val, e_val = section1_calc(d_val, e_val, t_val, a_val, b_val, data[3])
        b_val, d_val = section1_calc(c_val, d_val, e_val, t_val, a_val, data[4])
        a_val, c_val = section1_calc(b_val, c_val, d_val, e_val, t_val, data[5])
        t_val, b_val = section1_calc(a_val, b_val, c_val, d_val, e_val, data[6])
        e_val, a_val = section1_calc(t_val, a_val, b_val, c_val, d_val, data[7])
        d_val, t_val = section1_calc(e_val, t_val, a_val, b_val, c_val, data[8])

        self.calc_w(16)
        # self.calc_w(18) precomputed
        self.calc_w(19)
        self.calc_w(21)
        self.calc_w(22)
        self.calc_w(24)
        self.calc_w(27)
        self.calc_w(30)

        alpha = np.empty(5, dtype=np.uint32)
        alpha[0] = d_val
        alpha[1] = e_val
        alpha[2] = t_val
        alpha[3] = a_val
        alpha[4] = b_val

        return alpha
``` -/
def SHA1.precompute : Fun where
  params := []
  body :=
    (.seq
     (.assign (.var "data") (.self "data"))
    (.seq
     (.assign (.var "a_val") (.cast u32 (.num 0x67452301)))
    (.seq
     (.assign (.var "b_val") (.cast u32 (.num 0xEFCDAB89)))
    (.seq
     (.assign (.var "c_val") (.cast u32 (.num 0x98BADCFE)))
    (.seq
     (.assign (.var "d_val") (.cast u32 (.num 0x10325476)))
    (.seq
     (.assign (.var "e_val") (.cast u32 (.num 0xC3D2E1F0)))
    (.seq
     (.assign (.cons (.var "t_val") (.cons (.var "b_val") .nil)) (.call "section1_calc" (.cons (.var "a_val") (.cons (.var "b_val") (.cons (.var "c_val") (.cons (.var "d_val") (.cons (.var "e_val") (.cons (.item (.var "data") (.num 0)) .nil))))))))
    (.seq
     (.assign (.cons (.var "e_val") (.cons (.var "a_val") .nil)) (.call "section1_calc" (.cons (.var "t_val") (.cons (.var "a_val") (.cons (.var "b_val") (.cons (.var "c_val") (.cons (.var "d_val") (.cons (.item (.var "data") (.num 1)) .nil))))))))
    (.seq
     (.assign (.cons (.var "d_val") (.cons (.var "t_val") .nil)) (.call "section1_calc" (.cons (.var "e_val") (.cons (.var "t_val") (.cons (.var "a_val") (.cons (.var "b_val") (.cons (.var "c_val") (.cons (.item (.var "data") (.num 2)) .nil))))))))
    (.seq
     (.assign (.cons (.var "c_val") (.cons (.var "e_val") .nil)) (.call "section1_calc" (.cons (.var "d_val") (.cons (.var "e_val") (.cons (.var "t_val") (.cons (.var "a_val") (.cons (.var "b_val") (.cons (.item (.var "data") (.num 3)) .nil))))))))
    (.seq
     (.assign (.cons (.var "b_val") (.cons (.var "d_val") .nil)) (.call "section1_calc" (.cons (.var "c_val") (.cons (.var "d_val") (.cons (.var "e_val") (.cons (.var "t_val") (.cons (.var "a_val") (.cons (.item (.var "data") (.num 4)) .nil))))))))
    (.seq
     (.assign (.cons (.var "a_val") (.cons (.var "c_val") .nil)) (.call "section1_calc" (.cons (.var "b_val") (.cons (.var "c_val") (.cons (.var "d_val") (.cons (.var "e_val") (.cons (.var "t_val") (.cons (.item (.var "data") (.num 5)) .nil))))))))
    (.seq
     (.assign (.cons (.var "t_val") (.cons (.var "b_val") .nil)) (.call "section1_calc" (.cons (.var "a_val") (.cons (.var "b_val") (.cons (.var "c_val") (.cons (.var "d_val") (.cons (.var "e_val") (.cons (.item (.var "data") (.num 6)) .nil))))))))
    (.seq
     (.assign (.cons (.var "e_val") (.cons (.var "a_val") .nil)) (.call "section1_calc" (.cons (.var "t_val") (.cons (.var "a_val") (.cons (.var "b_val") (.cons (.var "c_val") (.cons (.var "d_val") (.cons (.item (.var "data") (.num 7)) .nil))))))))
    (.seq
     (.assign (.cons (.var "d_val") (.cons (.var "t_val") .nil)) (.call "section1_calc" (.cons (.var "e_val") (.cons (.var "t_val") (.cons (.var "a_val") (.cons (.var "b_val") (.cons (.var "c_val") (.cons (.item (.var "data") (.num 8)) .nil))))))))
    (.seq
     (.expr (.meth "calc_w" (.cons (.num 0x10) .nil)))
    (.seq
     (.expr (.meth "calc_w" (.cons (.num 0x13) .nil)))
    (.seq
     (.expr (.meth "calc_w" (.cons (.num 0x15) .nil)))
    (.seq
     (.expr (.meth "calc_w" (.cons (.num 0x16) .nil)))
    (.seq
     (.expr (.meth "calc_w" (.cons (.num 0x18) .nil)))
    (.seq
     (.expr (.meth "calc_w" (.cons (.num 0x1B) .nil)))
    (.seq
     (.expr (.meth "calc_w" (.cons (.num 0x1E) .nil)))
    (.seq
     (.assign (.var "alpha") (.call "np.empty.uint32" (.cons (.num 5) .nil)))
    (.seq
     (.assign (.item (.var "alpha") (.num 0)) (.var "d_val"))
    (.seq
     (.assign (.item (.var "alpha") (.num 1)) (.var "e_val"))
    (.seq
     (.assign (.item (.var "alpha") (.num 2)) (.var "t_val"))
    (.seq
     (.assign (.item (.var "alpha") (.num 3)) (.var "a_val"))
    (.seq
     (.assign (.item (.var "alpha") (.num 4)) (.var "b_val"))
    (.ret (.var "alpha"))))))))))))))))))))))))))))))

/-- `sha1.py:527-530`
```
    def set_button(self, button: np.uint32) -> None:
        """Set held button"""
        # TODO: make this more useable w/ button enum instead of u32 constants
        self.data[12] = np.uint32(button)
``` -/
def SHA1.set_button : Fun where
  params := ["button"]
  body :=
    (.assign (.item (.self "data") (.num 0xC)) (.cast u32 (.var "button")))

/-- `sha1.py:532-544`
```
    def set_date(
        self, year: np.uint16, month: np.uint8, day: np.uint8, day_of_week: np.uint8
    ):
        """Set start up date"""
        # TODO: compute day_of_week
        self.data[8] = (
            np.uint32(
                np.uint32(BCD[np.uint16(year) - np.uint16(2000)]) << np.uint32(24)
            )
            | np.uint32(np.uint32(BCD[np.uint8(month)]) << np.uint32(16))
            | np.uint32(np.uint32(BCD[np.uint8(day)]) << np.uint32(8))
            | np.uint32(np.uint8(day_of_week))
        )
``` -/
def SHA1.set_date : Fun where
  params := ["year", "month", "day", "day_of_week"]
  body :=
    (.assign (.item (.self "data") (.num 8)) (.bin .or (.bin .or (.bin .or (.cast u32 (.bin .shl (.cast u32 (.item (.var "BCD") (.bin .sub (.cast u16 (.var "year")) (.cast u16 (.num 0x7D0))))) (.cast u32 (.num 0x18)))) (.cast u32 (.bin .shl (.cast u32 (.item (.var "BCD") (.cast u8 (.var "month")))) (.cast u32 (.num 0x10))))) (.cast u32 (.bin .shl (.cast u32 (.item (.var "BCD") (.cast u8 (.var "day")))) (.cast u32 (.num 8))))) (.cast u32 (.cast u8 (.var "day_of_week")))))

/-- `sha1.py:546-550`
```
    def set_timer0(self, timer0: np.uint32, vcount: np.uint8) -> None:
        """Set Timer0 and vcount value"""
        self.data[5] = change_endian_u32(
            np.uint32(np.uint32(np.uint32(vcount) << np.uint32(16)) | np.uint32(timer0))
        )
``` -/
def SHA1.set_timer0 : Fun where
  params := ["timer0", "vcount"]
  body :=
    (.assign (.item (.self "data") (.num 5)) (.call "change_endian_u32" (.cons (.cast u32 (.bin .or (.cast u32 (.bin .shl (.cast u32 (.var "vcount")) (.cast u32 (.num 0x10)))) (.cast u32 (.var "timer0")))) .nil)))

/-- `sha1.py:552-564`
```
    def set_time(self, hour: np.uint8, minute: np.uint8, second: np.uint8):
        """Set start up time"""
        h_val = np.uint32(
            np.uint32(BCD[np.uint8(hour)])
            + (
                np.uint32(0x40)
                if np.uint8(hour) >= np.uint8(12) and self.ds_type != DSType.DS3
                else np.uint32(0)
            )
        ) << np.uint32(24)
        m_val = np.uint32(np.uint32(BCD[np.uint8(minute)]) << np.uint32(16))
        s_val = np.uint32(np.uint32(BCD[np.uint8(second)]) << np.uint32(8))
        self.data[9] = h_val | m_val | s_val
``` -/
def SHA1.set_time : Fun where
  params := ["hour", "minute", "second"]
  body :=
    (.seq
     (.assign (.var "h_val") (.bin .shl (.cast u32 (.bin .add (.cast u32 (.item (.var "BCD") (.cast u8 (.var "hour")))) (.ite (.and (.cmp .ge (.cast u8 (.var "hour")) (.cast u8 (.num 0xC))) (.cmp .ne (.self "ds_type") (.var "DSType.DS3"))) (.cast u32 (.num 0x40)) (.cast u32 (.num 0))))) (.cast u32 (.num 0x18))))
    (.seq
     (.assign (.var "m_val") (.cast u32 (.bin .shl (.cast u32 (.item (.var "BCD") (.cast u8 (.var "minute")))) (.cast u32 (.num 0x10)))))
    (.seq
     (.assign (.var "s_val") (.cast u32 (.bin .shl (.cast u32 (.item (.var "BCD") (.cast u8 (.var "second")))) (.cast u32 (.num 8)))))
    (.assign (.item (.self "data") (.num 9)) (.bin .or (.bin .or (.var "h_val") (.var "m_val")) (.var "s_val"))))))

/-- `sha1.py:566-577`
```
    def calc_w(self, i: np.uint32) -> np.uint32:
        """Calc hash input value"""
        data = self.data
        val = rotate_left_u32(
            data[np.uint32(i) - np.uint32(3)]
            ^ data[np.uint32(i) - np.uint32(8)]
            ^ data[np.uint32(i) - np.uint32(14)]
            ^ data[np.uint32(i) - np.uint32(16)],
            np.uint32(1),
        )
        data[np.uint32(i)] = val
        return val
``` -/
def SHA1.calc_w : Fun where
  params := ["i"]
  body :=
    (.seq
     (.assign (.var "data") (.self "data"))
    (.seq
     (.assign (.var "val") (.call "rotate_left_u32" (.cons (.bin .xor (.bin .xor (.bin .xor (.item (.var "data") (.bin .sub (.cast u32 (.var "i")) (.cast u32 (.num 3)))) (.item (.var "data") (.bin .sub (.cast u32 (.var "i")) (.cast u32 (.num 8))))) (.item (.var "data") (.bin .sub (.cast u32 (.var "i")) (.cast u32 (.num 0xE))))) (.item (.var "data") (.bin .sub (.cast u32 (.var "i")) (.cast u32 (.num 0x10))))) (.cons (.cast u32 (.num 1)) .nil))))
    (.seq
     (.assign (.item (.var "data") (.cast u32 (.var "i"))) (.var "val"))
    (.ret (.var "val")))))

/-- `sha1.py:579-590`
```
    def calc_w_simd(self, i: np.uint32) -> np.uint32:
        """Calc hash input value w/SIMD"""
        data = self.data
        val = rotate_left_u32(
            data[np.uint32(i) - np.uint32(6)]
            ^ data[np.uint32(i) - np.uint32(16)]
            ^ data[np.uint32(i) - np.uint32(28)]
            ^ data[np.uint32(i) - np.uint32(32)],
            np.uint32(2),
        )
        data[np.uint32(i)] = np.uint32(val)
        return val
``` -/
def SHA1.calc_w_simd : Fun where
  params := ["i"]
  body :=
    (.seq
     (.assign (.var "data") (.self "data"))
    (.seq
     (.assign (.var "val") (.call "rotate_left_u32" (.cons (.bin .xor (.bin .xor (.bin .xor (.item (.var "data") (.bin .sub (.cast u32 (.var "i")) (.cast u32 (.num 6)))) (.item (.var "data") (.bin .sub (.cast u32 (.var "i")) (.cast u32 (.num 0x10))))) (.item (.var "data") (.bin .sub (.cast u32 (.var "i")) (.cast u32 (.num 0x1C))))) (.item (.var "data") (.bin .sub (.cast u32 (.var "i")) (.cast u32 (.num 0x20))))) (.cons (.cast u32 (.num 2)) .nil))))
    (.seq
     (.assign (.item (.var "data") (.cast u32 (.var "i"))) (.cast u32 (.var "val")))
    (.ret (.var "val")))))

/-- the members of the enumerations of enums/ds_type.py, enums/language.py and enums/game.py -/
def enums : List (String × Int) :=
  [("DSType.DS", 0),
   ("DSType.DSI", 1),
   ("DSType.DS3", 2),
   ("Language.ENGLISH", 0),
   ("Language.FRENCH", 1),
   ("Language.GERMAN", 2),
   ("Language.ITALIAN", 3),
   ("Language.JAPANESE", 4),
   ("Language.KOREAN", 5),
   ("Language.SPANISH", 6),
   ("Game.NONE", 0),
   ("Game.RUBY", 1),
   ("Game.SAPPHIRE", 2),
   ("Game.EMERALD", 4),
   ("Game.FIRE_RED", 8),
   ("Game.LEAF_GREEN", 0x10),
   ("Game.GALES", 0x20),
   ("Game.COLOSSEUM", 0x40),
   ("Game.DIAMOND", 0x200),
   ("Game.PEARL", 0x100),
   ("Game.PLATINUM", 0x200),
   ("Game.HEART_GOLD", 0x400),
   ("Game.SOUL_SILVER", 0x800),
   ("Game.BLACK", 0x1000),
   ("Game.WHITE", 0x2000),
   ("Game.BLACK2", 0x4000),
   ("Game.WHITE2", 0x8000),
   ("Game.X", 0x10000),
   ("Game.Y", 0x20000),
   ("Game.OMEGA_RUBY", 0x40000),
   ("Game.ALPHA_SAPPHIRE", 0x80000),
   ("Game.SUN", 0x100000),
   ("Game.MOON", 0x200000),
   ("Game.ULTRA_SUN", 0x400000),
   ("Game.ULTRA_MOON", 0x800000),
   ("Game.SWORD", 0x1000000),
   ("Game.SHIELD", 0x2000000),
   ("Game.BRILLIANT_DIAMOND", 0x4000000),
   ("Game.SHINING_PEARL", 0x8000000),
   ("Game.LEGENDS_ARCEUS", 0x10000000)]

/-- `sha1.py:50-111`: the names assigned and the expressions -/
def sha1_constants : List (String × Expr) :=
  [("ENGLISH_BLACK", (.call "compute_nazo_bw" (.cons (.num 0x22160B0) .nil))),
   ("ENGLISH_WHITE", (.call "compute_nazo_bw" (.cons (.num 0x22160D0) .nil))),
   ("ENGLISH_BLACK_DSI", (.call "compute_nazo_bw" (.cons (.num 0x2760190) .nil))),
   ("ENGLISH_WHITE_DSI", (.call "compute_nazo_bw" (.cons (.num 0x27601B0) .nil))),
   ("ENGLISH_BLACK2", (.call "compute_nazo_bw2" (.cons (.num 0x2200010) (.cons (.num 0x209AEE8) (.cons (.num 0x2039DE9) .nil))))),
   ("ENGLISH_WHITE2", (.call "compute_nazo_bw2" (.cons (.num 0x2200050) (.cons (.num 0x209AF28) (.cons (.num 0x2039E15) .nil))))),
   ("ENGLISH_BLACK2_DSI", (.call "compute_nazo_bw2" (.cons (.num 0x27A5F70) (.cons (.num 0x209AEE8) (.cons (.num 0x2039DE9) .nil))))),
   ("ENGLISH_WHITE2_DSI", (.call "compute_nazo_bw2" (.cons (.num 0x27A5E90) (.cons (.num 0x209AF28) (.cons (.num 0x2039E15) .nil))))),
   ("JAPANESE_BLACK", (.call "compute_nazo_bw" (.cons (.num 0x2215F10) .nil))),
   ("JAPANESE_WHITE", (.call "compute_nazo_bw" (.cons (.num 0x2215F30) .nil))),
   ("JAPANESE_BLACK_DSI", (.call "compute_nazo_bw" (.cons (.num 0x2761150) .nil))),
   ("JAPANESE_WHITE_DSI", (.call "compute_nazo_bw" (.cons (.num 0x2761150) .nil))),
   ("JAPANESE_BLACK2", (.call "compute_nazo_bw2" (.cons (.num 0x21FF9B0) (.cons (.num 0x209A8DC) (.cons (.num 0x2039AC9) .nil))))),
   ("JAPANESE_WHITE2", (.call "compute_nazo_bw2" (.cons (.num 0x21FF9D0) (.cons (.num 0x209A8FC) (.cons (.num 0x2039AF5) .nil))))),
   ("JAPANESE_BLACK2_DSI", (.call "compute_nazo_bw2" (.cons (.num 0x27AA730) (.cons (.num 0x209A8DC) (.cons (.num 0x2039AC9) .nil))))),
   ("JAPANESE_WHITE2_DSI", (.call "compute_nazo_bw2" (.cons (.num 0x27AA5F0) (.cons (.num 0x209A8FC) (.cons (.num 0x2039AF5) .nil))))),
   ("GERMAN_BLACK", (.call "compute_nazo_bw" (.cons (.num 0x2215FF0) .nil))),
   ("GERMAN_WHITE", (.call "compute_nazo_bw" (.cons (.num 0x2216010) .nil))),
   ("GERMAN_BLACK_DSI", (.call "compute_nazo_bw" (.cons (.num 0x27602F0) .nil))),
   ("GERMAN_WHITE_DSI", (.call "compute_nazo_bw" (.cons (.num 0x27602F0) .nil))),
   ("GERMAN_BLACK2", (.call "compute_nazo_bw2" (.cons (.num 0x21FFF50) (.cons (.num 0x209AE28) (.cons (.num 0x2039D69) .nil))))),
   ("GERMAN_WHITE2", (.call "compute_nazo_bw2" (.cons (.num 0x21FFF70) (.cons (.num 0x209AE48) (.cons (.num 0x2039D95) .nil))))),
   ("GERMAN_BLACK2_DSI", (.call "compute_nazo_bw2" (.cons (.num 0x27A6110) (.cons (.num 0x209AE28) (.cons (.num 0x2039D69) .nil))))),
   ("GERMAN_WHITE2_DSI", (.call "compute_nazo_bw2" (.cons (.num 0x27A6010) (.cons (.num 0x209AE48) (.cons (.num 0x2039D95) .nil))))),
   ("SPANISH_BLACK", (.call "compute_nazo_bw" (.cons (.num 0x2216070) .nil))),
   ("SPANISH_WHITE", (.call "compute_nazo_bw" (.cons (.num 0x2216070) .nil))),
   ("SPANISH_BLACK_DSI", (.call "compute_nazo_bw" (.cons (.num 0x27601F0) .nil))),
   ("SPANISH_WHITE_DSI", (.call "compute_nazo_bw" (.cons (.num 0x27601F0) .nil))),
   ("SPANISH_BLACK2", (.call "compute_nazo_bw2" (.cons (.num 0x21FFFD0) (.cons (.num 0x209AEA8) (.cons (.num 0x2039DB9) .nil))))),
   ("SPANISH_WHITE2", (.call "compute_nazo_bw2" (.cons (.num 0x21FFFF0) (.cons (.num 0x209AEC8) (.cons (.num 0x2039DE5) .nil))))),
   ("SPANISH_BLACK2_DSI", (.call "compute_nazo_bw2" (.cons (.num 0x27A6070) (.cons (.num 0x209AEA8) (.cons (.num 0x2039DB9) .nil))))),
   ("SPANISH_WHITE2_DSI", (.call "compute_nazo_bw2" (.cons (.num 0x27A5FB0) (.cons (.num 0x209AEC8) (.cons (.num 0x2039DE5) .nil))))),
   ("FRENCH_BLACK", (.call "compute_nazo_bw" (.cons (.num 0x2216030) .nil))),
   ("FRENCH_WHITE", (.call "compute_nazo_bw" (.cons (.num 0x2216050) .nil))),
   ("FRENCH_BLACK_DSI", (.call "compute_nazo_bw" (.cons (.num 0x2760230) .nil))),
   ("FRENCH_WHITE_DSI", (.call "compute_nazo_bw" (.cons (.num 0x2760250) .nil))),
   ("FRENCH_BLACK2", (.call "compute_nazo_bw2" (.cons (.num 0x2200030) (.cons (.num 0x209AF08) (.cons (.num 0x2039DF9) .nil))))),
   ("FRENCH_WHITE2", (.call "compute_nazo_bw2" (.cons (.num 0x2200050) (.cons (.num 0x209AF28) (.cons (.num 0x2039E25) .nil))))),
   ("FRENCH_BLACK2_DSI", (.call "compute_nazo_bw2" (.cons (.num 0x27A5F90) (.cons (.num 0x209AF08) (.cons (.num 0x2039DF9) .nil))))),
   ("FRENCH_WHITE2_DSI", (.call "compute_nazo_bw2" (.cons (.num 0x27A5EF0) (.cons (.num 0x209AF28) (.cons (.num 0x2039E25) .nil))))),
   ("ITALIAN_BLACK", (.call "compute_nazo_bw" (.cons (.num 0x2215FB0) .nil))),
   ("ITALIAN_WHITE", (.call "compute_nazo_bw" (.cons (.num 0x2215FD0) .nil))),
   ("ITALIAN_BLACK_DSI", (.call "compute_nazo_bw" (.cons (.num 0x27601D0) .nil))),
   ("ITALIAN_WHITE_DSI", (.call "compute_nazo_bw" (.cons (.num 0x27601D0) .nil))),
   ("ITALIAN_BLACK2", (.call "compute_nazo_bw2" (.cons (.num 0x21FFF10) (.cons (.num 0x209ADE8) (.cons (.num 0x2039D69) .nil))))),
   ("ITALIAN_WHITE2", (.call "compute_nazo_bw2" (.cons (.num 0x21FFF50) (.cons (.num 0x209AE28) (.cons (.num 0x2039D95) .nil))))),
   ("ITALIAN_BLACK2_DSI", (.call "compute_nazo_bw2" (.cons (.num 0x27A5F70) (.cons (.num 0x209ADE8) (.cons (.num 0x2039D69) .nil))))),
   ("ITALIAN_WHITE2_DSI", (.call "compute_nazo_bw2" (.cons (.num 0x27A5ED0) (.cons (.num 0x209AE28) (.cons (.num 0x2039D95) .nil))))),
   ("KOREAN_BLACK", (.call "compute_nazo_bw" (.cons (.num 0x22167B0) .nil))),
   ("KOREAN_WHITE", (.call "compute_nazo_bw" (.cons (.num 0x22167B0) .nil))),
   ("KOREAN_BLACK_DSI", (.call "compute_nazo_bw" (.cons (.num 0x2761150) .nil))),
   ("KOREAN_WHITE_DSI", (.call "compute_nazo_bw" (.cons (.num 0x2761150) .nil))),
   ("KOREAN_BLACK2", (.call "compute_nazo_bw2" (.cons (.num 0x2200750) (.cons (.num 0x209B60C) (.cons (.num 0x203A4D5) .nil))))),
   ("KOREAN_WHITE2", (.call "compute_nazo_bw2" (.cons (.num 0x2200770) (.cons (.num 0x209B62C) (.cons (.num 0x203A501) .nil))))),
   ("KOREAN_BLACK2_DSI", (.call "compute_nazo_bw2" (.cons (.num 0x2200770) (.cons (.num 0x209B60C) (.cons (.num 0x203A4D5) .nil))))),
   ("KOREAN_WHITE2_DSI", (.call "compute_nazo_bw2" (.cons (.num 0x27A57B0) (.cons (.num 0x209B62C) (.cons (.num 0x203A501) .nil)))))]

/-! ### gen3/encounter_area_3.py -/

/-- `gen3/encounter_area_3.py:36-51`
```
@optional_njit
def calculate_hslot(
    encounter_area: EncounterArea3, rng: PokeRNGMod, encounter_type: Encounter
) -> Slot3:
    """Calculate the Slot3 of the current rng"""
    if encounter_type == Encounter.OLD_ROD:
        return encounter_area.fish_old[OLD_ROD_TABLE[hslot_rand(rng)]]
    if encounter_type == Encounter.GOOD_ROD:
        return encounter_area.fish_good[GOOD_ROD_TABLE[hslot_rand(rng)]]
    if encounter_type == Encounter.SUPER_ROD:
        return encounter_area.fish_super[SUPER_ROD_TABLE[hslot_rand(rng)]]
    if encounter_type == Encounter.ROCK_SMASH:
        return encounter_area.rock[ROCK_SMASH_AND_SURF_TABLE[hslot_rand(rng)]]
    if encounter_type == Encounter.SURFING:
        return encounter_area.water[ROCK_SMASH_AND_SURF_TABLE[hslot_rand(rng)]]
    return encounter_area.land[GRASS_TABLE[hslot_rand(rng)]]
``` -/
def calculate_hslot : Fun where
  params := ["encounter_area", "rng", "encounter_type"]
  body :=
    (.seq
     (.ite (.cmp .eq (.var "encounter_type") (.var "Encounter.OLD_ROD"))
      (.ret (.item (.attr (.var "encounter_area") "fish_old") (.item (.var "OLD_ROD_TABLE") (.call "hslot_rand" (.cons (.var "rng") .nil)))))
      .pass)
    (.seq
     (.ite (.cmp .eq (.var "encounter_type") (.var "Encounter.GOOD_ROD"))
      (.ret (.item (.attr (.var "encounter_area") "fish_good") (.item (.var "GOOD_ROD_TABLE") (.call "hslot_rand" (.cons (.var "rng") .nil)))))
      .pass)
    (.seq
     (.ite (.cmp .eq (.var "encounter_type") (.var "Encounter.SUPER_ROD"))
      (.ret (.item (.attr (.var "encounter_area") "fish_super") (.item (.var "SUPER_ROD_TABLE") (.call "hslot_rand" (.cons (.var "rng") .nil)))))
      .pass)
    (.seq
     (.ite (.cmp .eq (.var "encounter_type") (.var "Encounter.ROCK_SMASH"))
      (.ret (.item (.attr (.var "encounter_area") "rock") (.item (.var "ROCK_SMASH_AND_SURF_TABLE") (.call "hslot_rand" (.cons (.var "rng") .nil)))))
      .pass)
    (.seq
     (.ite (.cmp .eq (.var "encounter_type") (.var "Encounter.SURFING"))
      (.ret (.item (.attr (.var "encounter_area") "water") (.item (.var "ROCK_SMASH_AND_SURF_TABLE") (.call "hslot_rand" (.cons (.var "rng") .nil)))))
      .pass)
    (.ret (.item (.attr (.var "encounter_area") "land") (.item (.var "GRASS_TABLE") (.call "hslot_rand" (.cons (.var "rng") .nil))))))))))

/-- `gen3/encounter_area_3.py:54-69`
```
@optional_njit
def calculate_hslot_lead(
    encounter_area: EncounterArea3,
    rng: PokeRNGMod,
    encounter_type: Encounter,
    lead: Lead,
    modified_slots: list[Slot3],
) -> Slot3:
    """Calculate hslot accounting for magnet pull and static"""
    if (
        (lead == Lead.MAGNET_PULL or lead == Lead.STATIC)
        and rand_2(rng) == 0
        and len(modified_slots) != 0
    ):
        return modified_slots[rng.next_rand(len(modified_slots))]
    return calculate_hslot(encounter_area, rng, encounter_type)
``` -/
def calculate_hslot_lead : Fun where
  params := ["encounter_area", "rng", "encounter_type", "lead", "modified_slots"]
  body :=
    (.seq
     (.ite (.and (.or (.cmp .eq (.var "lead") (.var "Lead.MAGNET_PULL")) (.cmp .eq (.var "lead") (.var "Lead.STATIC"))) (.and (.cmp .eq (.call "rand_2" (.cons (.var "rng") .nil)) (.num 0)) (.cmp .ne (.call "len" (.cons (.var "modified_slots") .nil)) (.num 0))))
      (.ret (.item (.var "modified_slots") (.call ".next_rand" (.cons (.var "rng") (.cons (.call "len" (.cons (.var "modified_slots") .nil)) .nil)))))
      .pass)
    (.ret (.call "calculate_hslot" (.cons (.var "encounter_area") (.cons (.var "rng") (.cons (.var "encounter_type") .nil))))))

/-- `gen3/encounter_area_3.py:72-84`
```
@optional_njit
def calculate_level(slot: Slot3, rng: PokeRNGMod, pressure: bool) -> np.uint8:
    """Calculate the level of a pokemon taking into account modification from pressure"""
    minimum = slot.min_level
    maximum = slot.max_level
    level_range = maximum - minimum + 1
    rand = rng.next_rand(level_range)
    if pressure:
        if rand_2(rng) == 0:
            return maximum
        if rand != 0:
            rand -= 1
    return minimum + rand
``` -/
def calculate_level : Fun where
  params := ["slot", "rng", "pressure"]
  body :=
    (.seq
     (.assign (.var "minimum") (.attr (.var "slot") "min_level"))
    (.seq
     (.assign (.var "maximum") (.attr (.var "slot") "max_level"))
    (.seq
     (.assign (.var "level_range") (.bin .add (.bin .sub (.var "maximum") (.var "minimum")) (.num 1)))
    (.seq
     (.assign (.var "rand") (.call ".next_rand" (.cons (.var "rng") (.cons (.var "level_range") .nil))))
    (.seq
     (.ite (.var "pressure")
      (.seq
       (.ite (.cmp .eq (.call "rand_2" (.cons (.var "rng") .nil)) (.num 0))
        (.ret (.var "maximum"))
        .pass)
      (.ite (.cmp .ne (.var "rand") (.num 0))
       (.aug .sub (.var "rand") (.num 1))
       .pass))
      .pass)
    (.ret (.bin .add (.var "minimum") (.var "rand"))))))))

/-- `gen3/encounter_area_3.py:87-113`
```
@optional_njit
def is_rse_safari_zone(encounter_area: EncounterArea3, game: Game) -> np.bool_:
    """Check if a locaton is in the RSE safari zone"""
    location = encounter_area.location
    if game & (Game.RUBY | Game.SAPPHIRE):
        if (
            location == 90
            or location == 187
            or location == 89
            or location == 186
            or location == 92
            or location == 189
            or location == 91
            or location == 188
        ):
            return True
    elif game & Game.EMERALD:
        if (
            location == 73
            or location == 98
            or location == 74
            or location == 20
            or location == 97
            or location == 72
        ):
            return True
    return False
``` -/
def is_rse_safari_zone : Fun where
  params := ["encounter_area", "game"]
  body :=
    (.seq
     (.assign (.var "location") (.attr (.var "encounter_area") "location"))
    (.seq
     (.ite (.bin .and (.var "game") (.bin .or (.var "Game.RUBY") (.var "Game.SAPPHIRE")))
      (.ite (.or (.cmp .eq (.var "location") (.num 0x5A)) (.or (.cmp .eq (.var "location") (.num 0xBB)) (.or (.cmp .eq (.var "location") (.num 0x59)) (.or (.cmp .eq (.var "location") (.num 0xBA)) (.or (.cmp .eq (.var "location") (.num 0x5C)) (.or (.cmp .eq (.var "location") (.num 0xBD)) (.or (.cmp .eq (.var "location") (.num 0x5B)) (.cmp .eq (.var "location") (.num 0xBC)))))))))
       (.ret (.bool true))
       .pass)
      (.ite (.bin .and (.var "game") (.var "Game.EMERALD"))
       (.ite (.or (.cmp .eq (.var "location") (.num 0x49)) (.or (.cmp .eq (.var "location") (.num 0x62)) (.or (.cmp .eq (.var "location") (.num 0x4A)) (.or (.cmp .eq (.var "location") (.num 0x14)) (.or (.cmp .eq (.var "location") (.num 0x61)) (.cmp .eq (.var "location") (.num 0x48)))))))
        (.ret (.bool true))
        .pass)
       .pass))
    (.ret (.bool false))))

/-- `gen3/encounter_area_3.py:116-188`
```
@optional_njit
def get_modified_slots(
    encounter_area: EncounterArea3,
    encounter_type: Encounter,
    lead: Lead,
    game: Game,
    personal_info_table: list[PersonalInfo3],
):
    """Get modified slots from type-specific leads"""
    encounters = TypedList()

    if lead == Lead.MAGNET_PULL:
        lead_type = 8
    elif lead == Lead.STATIC:
        lead_type = (
            13
            if game
            & (
                Game.RUBY
                | Game.SAPPHIRE
                | Game.EMERALD
                | Game.FIRE_RED
                | Game.LEAF_GREEN
                | Game.DIAMOND
                | Game.PEARL
                | Game.PLATINUM
                | Game.HEART_GOLD
                | Game.SOUL_SILVER
            )
            else 12
        )
    elif lead == Lead.HARVEST:
        lead_type = 11
    elif lead == Lead.FLASH_FIRE:
        lead_type = 9
    elif lead == Lead.STORM_DRAIN:
        lead_type = 10
    else:
        return encounters

    # loop has to be repeated or TypedList breaks for some reason
    if encounter_type == Encounter.OLD_ROD:
        for slot in encounter_area.fish_old:
            info: PersonalInfo3 = personal_info_table[slot.species & 0x3FF]
            if info.type_1 == lead_type or info.type_2 == lead_type:
                encounters.append(slot)
    elif encounter_type == Encounter.GOOD_ROD:
        for slot in encounter_area.fish_good:
            info: PersonalInfo3 = personal_info_table[slot.species & 0x3FF]
            if info.type_1 == lead_type or info.type_2 == lead_type:
                encounters.append(slot)
    elif encounter_type == Encounter.SUPER_ROD:
        for slot in encounter_area.fish_super:
            info: PersonalInfo3 = personal_info_table[slot.species & 0x3FF]
            if info.type_1 == lead_type or info.type_2 == lead_type:
                encounters.append(slot)
    elif encounter_type == Encounter.ROCK_SMASH:
        for slot in encounter_area.rock:
            info: PersonalInfo3 = personal_info_table[slot.species & 0x3FF]
            if info.type_1 == lead_type or info.type_2 == lead_type:
                encounters.append(slot)
    elif encounter_type == Encounter.SURFING:
        for slot in encounter_area.water:
            info: PersonalInfo3 = personal_info_table[slot.species & 0x3FF]
            if info.type_1 == lead_type or info.type_2 == lead_type:
                encounters.append(slot)
    else:
        for slot in encounter_area.land:
            info: PersonalInfo3 = personal_info_table[slot.species & 0x3FF]
            if info.type_1 == lead_type or info.type_2 == lead_type:
                encounters.append(slot)

    return encounters
``` -/
def get_modified_slots : Fun where
  params := ["encounter_area", "encounter_type", "lead", "game", "personal_info_table"]
  body :=
    (.seq
     (.assign (.var "encounters") (.call "TypedList" .nil))
    (.seq
     (.ite (.cmp .eq (.var "lead") (.var "Lead.MAGNET_PULL"))
      (.assign (.var "lead_type") (.num 8))
      (.ite (.cmp .eq (.var "lead") (.var "Lead.STATIC"))
       (.assign (.var "lead_type") (.ite (.bin .and (.var "game") (.bin .or (.bin .or (.bin .or (.bin .or (.bin .or (.bin .or (.bin .or (.bin .or (.bin .or (.var "Game.RUBY") (.var "Game.SAPPHIRE")) (.var "Game.EMERALD")) (.var "Game.FIRE_RED")) (.var "Game.LEAF_GREEN")) (.var "Game.DIAMOND")) (.var "Game.PEARL")) (.var "Game.PLATINUM")) (.var "Game.HEART_GOLD")) (.var "Game.SOUL_SILVER"))) (.num 0xD) (.num 0xC)))
       (.ite (.cmp .eq (.var "lead") (.var "Lead.HARVEST"))
        (.assign (.var "lead_type") (.num 0xB))
        (.ite (.cmp .eq (.var "lead") (.var "Lead.FLASH_FIRE"))
         (.assign (.var "lead_type") (.num 9))
         (.ite (.cmp .eq (.var "lead") (.var "Lead.STORM_DRAIN"))
          (.assign (.var "lead_type") (.num 0xA))
          (.ret (.var "encounters")))))))
    (.seq
     (.ite (.cmp .eq (.var "encounter_type") (.var "Encounter.OLD_ROD"))
      (.for "slot" (.attr (.var "encounter_area") "fish_old")
       (.seq
        (.assign (.var "info") (.item (.var "personal_info_table") (.bin .and (.attr (.var "slot") "species") (.num 0x3FF))))
       (.ite (.or (.cmp .eq (.attr (.var "info") "type_1") (.var "lead_type")) (.cmp .eq (.attr (.var "info") "type_2") (.var "lead_type")))
        (.assign (.var "encounters") (.call ".append" (.cons (.var "encounters") (.cons (.var "slot") .nil))))
        .pass)))
      (.ite (.cmp .eq (.var "encounter_type") (.var "Encounter.GOOD_ROD"))
       (.for "slot" (.attr (.var "encounter_area") "fish_good")
        (.seq
         (.assign (.var "info") (.item (.var "personal_info_table") (.bin .and (.attr (.var "slot") "species") (.num 0x3FF))))
        (.ite (.or (.cmp .eq (.attr (.var "info") "type_1") (.var "lead_type")) (.cmp .eq (.attr (.var "info") "type_2") (.var "lead_type")))
         (.assign (.var "encounters") (.call ".append" (.cons (.var "encounters") (.cons (.var "slot") .nil))))
         .pass)))
       (.ite (.cmp .eq (.var "encounter_type") (.var "Encounter.SUPER_ROD"))
        (.for "slot" (.attr (.var "encounter_area") "fish_super")
         (.seq
          (.assign (.var "info") (.item (.var "personal_info_table") (.bin .and (.attr (.var "slot") "species") (.num 0x3FF))))
         (.ite (.or (.cmp .eq (.attr (.var "info") "type_1") (.var "lead_type")) (.cmp .eq (.attr (.var "info") "type_2") (.var "lead_type")))
          (.assign (.var "encounters") (.call ".append" (.cons (.var "encounters") (.cons (.var "slot") .nil))))
          .pass)))
        (.ite (.cmp .eq (.var "encounter_type") (.var "Encounter.ROCK_SMASH"))
         (.for "slot" (.attr (.var "encounter_area") "rock")
          (.seq
           (.assign (.var "info") (.item (.var "personal_info_table") (.bin .and (.attr (.var "slot") "species") (.num 0x3FF))))
          (.ite (.or (.cmp .eq (.attr (.var "info") "type_1") (.var "lead_type")) (.cmp .eq (.attr (.var "info") "type_2") (.var "lead_type")))
           (.assign (.var "encounters") (.call ".append" (.cons (.var "encounters") (.cons (.var "slot") .nil))))
           .pass)))
         (.ite (.cmp .eq (.var "encounter_type") (.var "Encounter.SURFING"))
          (.for "slot" (.attr (.var "encounter_area") "water")
           (.seq
            (.assign (.var "info") (.item (.var "personal_info_table") (.bin .and (.attr (.var "slot") "species") (.num 0x3FF))))
           (.ite (.or (.cmp .eq (.attr (.var "info") "type_1") (.var "lead_type")) (.cmp .eq (.attr (.var "info") "type_2") (.var "lead_type")))
            (.assign (.var "encounters") (.call ".append" (.cons (.var "encounters") (.cons (.var "slot") .nil))))
            .pass)))
          (.for "slot" (.attr (.var "encounter_area") "land")
           (.seq
            (.assign (.var "info") (.item (.var "personal_info_table") (.bin .and (.attr (.var "slot") "species") (.num 0x3FF))))
           (.ite (.or (.cmp .eq (.attr (.var "info") "type_1") (.var "lead_type")) (.cmp .eq (.attr (.var "info") "type_2") (.var "lead_type")))
            (.assign (.var "encounters") (.call ".append" (.cons (.var "encounters") (.cons (.var "slot") .nil))))
            .pass))))))))
    (.ret (.var "encounters")))))

/-- `gen3/encounter_area_3.py:191-202`
```
@optional_njit
def get_encounter_rate(
    encounter_area: EncounterArea3, encounter_type: Encounter
) -> np.uint8:
    """Get encounter rate"""
    if encounter_type == Encounter.GRASS:
        return encounter_area.fish_rate
    if encounter_type == Encounter.ROCK_SMASH:
        return encounter_area.rock_rate
    if encounter_type == Encounter.SURFING:
        return encounter_area.water_rate
    return encounter_area.land_rate
``` -/
def get_encounter_rate : Fun where
  params := ["encounter_area", "encounter_type"]
  body :=
    (.seq
     (.ite (.cmp .eq (.var "encounter_type") (.var "Encounter.GRASS"))
      (.ret (.attr (.var "encounter_area") "fish_rate"))
      .pass)
    (.seq
     (.ite (.cmp .eq (.var "encounter_type") (.var "Encounter.ROCK_SMASH"))
      (.ret (.attr (.var "encounter_area") "rock_rate"))
      .pass)
    (.seq
     (.ite (.cmp .eq (.var "encounter_type") (.var "Encounter.SURFING"))
      (.ret (.attr (.var "encounter_area") "water_rate"))
      .pass)
    (.ret (.attr (.var "encounter_area") "land_rate")))))

/-- the members of the enumerations of enums/game.py, enums/encounter.py, enums/lead.py and enums/method.py -/
def enums3 : List (String × Int) :=
  [("Game.NONE", 0),
   ("Game.RUBY", 1),
   ("Game.SAPPHIRE", 2),
   ("Game.EMERALD", 4),
   ("Game.FIRE_RED", 8),
   ("Game.LEAF_GREEN", 0x10),
   ("Game.GALES", 0x20),
   ("Game.COLOSSEUM", 0x40),
   ("Game.DIAMOND", 0x200),
   ("Game.PEARL", 0x100),
   ("Game.PLATINUM", 0x200),
   ("Game.HEART_GOLD", 0x400),
   ("Game.SOUL_SILVER", 0x800),
   ("Game.BLACK", 0x1000),
   ("Game.WHITE", 0x2000),
   ("Game.BLACK2", 0x4000),
   ("Game.WHITE2", 0x8000),
   ("Game.X", 0x10000),
   ("Game.Y", 0x20000),
   ("Game.OMEGA_RUBY", 0x40000),
   ("Game.ALPHA_SAPPHIRE", 0x80000),
   ("Game.SUN", 0x100000),
   ("Game.MOON", 0x200000),
   ("Game.ULTRA_SUN", 0x400000),
   ("Game.ULTRA_MOON", 0x800000),
   ("Game.SWORD", 0x1000000),
   ("Game.SHIELD", 0x2000000),
   ("Game.BRILLIANT_DIAMOND", 0x4000000),
   ("Game.SHINING_PEARL", 0x8000000),
   ("Game.LEGENDS_ARCEUS", 0x10000000),
   ("Encounter.GRASS", 0),
   ("Encounter.DOUBLE_GRASS", 1),
   ("Encounter.SPECIAL_GRASS", 2),
   ("Encounter.ROCK_SMASH", 3),
   ("Encounter.SURFING", 4),
   ("Encounter.SPECIAL_SURF", 5),
   ("Encounter.OLD_ROD", 6),
   ("Encounter.GOOD_ROD", 7),
   ("Encounter.SUPER_ROD", 8),
   ("Encounter.SPECIAL_SUPER_ROD", 9),
   ("Encounter.STATIC", 0xA),
   ("Encounter.BUG_CATCHING_CONTEST", 0xB),
   ("Encounter.HEADBUTT", 0xC),
   ("Encounter.HEADBUTT_ALT", 0xD),
   ("Encounter.HEADBUTT_SPECIAL", 0xE),
   ("Encounter.ROAMER", 0xF),
   ("Encounter.GIFT", 0x10),
   ("Encounter.ENTRALINK", 0x11),
   ("Encounter.GIFT_EGG", 0x12),
   ("Encounter.HIDDEN_GROTTO", 0x13),
   ("Lead.NONE", 0xFF),
   ("Lead.SYNCHRONIZE_HARDY", 0),
   ("Lead.SYNCHRONIZE_LONELY", 1),
   ("Lead.SYNCHRONIZE_BRAVE", 2),
   ("Lead.SYNCHRONIZE_ADAMANT", 3),
   ("Lead.SYNCHRONIZE_NAUGHTY", 4),
   ("Lead.SYNCHRONIZE_BOLD", 5),
   ("Lead.SYNCHRONIZE_DOCILE", 6),
   ("Lead.SYNCHRONIZE_RELAXED", 7),
   ("Lead.SYNCHRONIZE_IMPISH", 8),
   ("Lead.SYNCHRONIZE_LAX", 9),
   ("Lead.SYNCHRONIZE_TIMID", 0xA),
   ("Lead.SYNCHRONIZE_HASTY", 0xB),
   ("Lead.SYNCHRONIZE_SERIOUS", 0xC),
   ("Lead.SYNCHRONIZE_JOLLY", 0xD),
   ("Lead.SYNCHRONIZE_NAIVE", 0xE),
   ("Lead.SYNCHRONIZE_MODEST", 0xF),
   ("Lead.SYNCHRONIZE_MILD", 0x10),
   ("Lead.SYNCHRONIZE_QUIET", 0x11),
   ("Lead.SYNCHRONIZE_BASHFUL", 0x12),
   ("Lead.SYNCHRONIZE_RASH", 0x13),
   ("Lead.SYNCHRONIZE_CALM", 0x14),
   ("Lead.SYNCHRONIZE_GENTLE", 0x15),
   ("Lead.SYNCHRONIZE_SASSY", 0x16),
   ("Lead.SYNCHRONIZE_CAREFUL", 0x17),
   ("Lead.SYNCHRONIZE_QUIRKY", 0x18),
   ("Lead.CUTE_CHARM_F", 0x19),
   ("Lead.CUTE_CHARM_M", 0x1A),
   ("Lead.MAGNET_PULL", 0x1B),
   ("Lead.STATIC", 0x1C),
   ("Lead.HARVEST", 0x1D),
   ("Lead.FLASH_FIRE", 0x1E),
   ("Lead.STORM_DRAIN", 0x1F),
   ("Lead.PRESSURE", 0x20),
   ("Lead.HUSTLE", 0x20),
   ("Lead.VITAL_SPIRIT", 0x20),
   ("Lead.SUCTION_CUPS", 0x21),
   ("Lead.STICKY_HOLD", 0x21),
   ("Lead.COMPOUND_EYES", 0x22),
   ("Lead.SUPER_LUCK", 0x22),
   ("Lead.ARENA_TRAP", 0x23),
   ("Lead.ILLUMINATE", 0x23),
   ("Lead.NO_GUARD", 0x23),
   ("Method.NONE", 0),
   ("Method.METHOD_1", 1),
   ("Method.METHOD_1_REVERSE", 2),
   ("Method.METHOD_2", 3),
   ("Method.METHOD_4", 4),
   ("Method.XD_COLO", 5),
   ("Method.CHANNEL", 6),
   ("Method.EBRED", 7),
   ("Method.EBRED_SPLIT", 8),
   ("Method.EBRED_ALTERNATE", 9),
   ("Method.EBRED_PID", 0xA),
   ("Method.RSFRLGBRED", 0xB),
   ("Method.RSFRLGBRED_SPLIT", 0xC),
   ("Method.RSFRLGBRED_ALTERNATE", 0xD),
   ("Method.RSFRLGBRED_MIXED", 0xE),
   ("Method.CUTE_CHARM_DPPT", 0xF),
   ("Method.CUTE_CHARM_HGSS", 0x10),
   ("Method.METHOD_J", 0x11),
   ("Method.METHOD_K", 0x12),
   ("Method.POKERADAR", 0x13),
   ("Method.WONDERCARD_IVS", 0x14),
   ("Method.METHOD_5_IVS", 0x15),
   ("Method.METHOD_5_CGEAR", 0x16),
   ("Method.METHOD_5", 0x17)]

/-! ### data/encounter/encounter_area_la.py -/

/-- `data/encounter/encounter_area_la.py:43-55`
```
    def calc_slot(self, rand: np.float32, time: LATime, weather: LAWeather) -> SlotLA:
        """Calculate encounter slot based on rand and time/weather"""
        probabilities = (
            self.slots.base_probability
            * self.slots.time_multipliers[:, time]
            * self.slots.weather_multipliers[:, weather]
        )
        scaled_rand = rand * np.sum(probabilities)
        for i, probability in enumerate(probabilities):
            if scaled_rand < probability:
                break
            scaled_rand -= probability
        return self.slots[i]
``` -/
def EncounterAreaLA.calc_slot : Fun where
  params := ["rand", "time", "weather"]
  body :=
    (.seq
     (.assign (.var "probabilities") (.bin .mul (.bin .mul (.attr (.self "slots") "base_probability") (.call "[:,]" (.cons (.attr (.self "slots") "time_multipliers") (.cons (.var "time") .nil)))) (.call "[:,]" (.cons (.attr (.self "slots") "weather_multipliers") (.cons (.var "weather") .nil)))))
    (.seq
     (.assign (.var "scaled_rand") (.bin .mul (.var "rand") (.call "np.sum" (.cons (.var "probabilities") .nil))))
    (.seq
     (.for "(i, probability)" (.call "enumerate" (.cons (.var "probabilities") .nil))
      (.seq
       (.assign (.cons (.var "i") (.cons (.var "probability") .nil)) (.var "(i, probability)"))
      (.seq
       (.ite (.cmp .lt (.var "scaled_rand") (.var "probability"))
        .break
        .pass)
      (.aug .sub (.var "scaled_rand") (.var "probability")))))
    (.ret (.item (.self "slots") (.var "i"))))))

/-! ### gen3/state.py -/

/-- `gen3/state.py:35-70`
```
    def update_stats(self, info: PersonalInfoProtocol) -> None:
        """Update stats on initialization"""
        self.gender = get_gender(self.pid, info.gender_ratio)
        self.nature = self.pid % 25
        hidden_power_val = np.uint8(0)
        hidden_power_strength_value = np.uint8(0)
        ec_index = self.pid % np.uint8(6)
        char_index = ec_index
        max_iv = np.uint8(0)
        base_stats = (
            info.hp,
            info.attack,
            info.defense,
            info.special_attack,
            info.special_defense,
            info.speed,
        )

        for i in range(6):
            hidden_power_val += (self.ivs[ORDER[i]] & 1) << i
            hidden_power_strength_value += ((self.ivs[ORDER[i]] >> 1) & 1) << i

            stat = np.uint16(((2 * base_stats[i] + self.ivs[i]) * self.level) // 100)
            if i == 0:
                self.stats[i] = stat + self.level + 10
            else:
                self.stats[i] = compute_stat(stat + 5, self.nature, i)

            index = CHAR_ORDER[ec_index + i]
            if self.ivs[ORDER[index]] > max_iv:
                char_index = index
                max_iv = self.ivs[ORDER[index]]

        self.hidden_power = hidden_power_val * 15 // 63
        self.hidden_power_strength = 30 + (hidden_power_strength_value * 40 / 63)
        self.characteristic = (char_index * 5) + (max_iv % 5)
``` -/
def State.update_stats : Fun where
  params := ["info"]
  body :=
    (.seq
     (.assign (.self "gender") (.call "get_gender" (.cons (.self "pid") (.cons (.attr (.var "info") "gender_ratio") .nil))))
    (.seq
     (.assign (.self "nature") (.bin .mod (.self "pid") (.num 0x19)))
    (.seq
     (.assign (.var "hidden_power_val") (.cast u8 (.num 0)))
    (.seq
     (.assign (.var "hidden_power_strength_value") (.cast u8 (.num 0)))
    (.seq
     (.assign (.var "ec_index") (.bin .mod (.self "pid") (.cast u8 (.num 6))))
    (.seq
     (.assign (.var "char_index") (.var "ec_index"))
    (.seq
     (.assign (.var "max_iv") (.cast u8 (.num 0)))
    (.seq
     (.assign (.var "base_stats") (.cons (.attr (.var "info") "hp") (.cons (.attr (.var "info") "attack") (.cons (.attr (.var "info") "defense") (.cons (.attr (.var "info") "special_attack") (.cons (.attr (.var "info") "special_defense") (.cons (.attr (.var "info") "speed") .nil)))))))
    (.seq
     (.for "i" (.call "range" (.cons (.num 6) .nil))
      (.seq
       (.aug .add (.var "hidden_power_val") (.bin .shl (.bin .and (.item (.self "ivs") (.item (.var "ORDER") (.var "i"))) (.num 1)) (.var "i")))
      (.seq
       (.aug .add (.var "hidden_power_strength_value") (.bin .shl (.bin .and (.bin .shr (.item (.self "ivs") (.item (.var "ORDER") (.var "i"))) (.num 1)) (.num 1)) (.var "i")))
      (.seq
       (.assign (.var "stat") (.cast u16 (.bin .floordiv (.bin .mul (.bin .add (.bin .mul (.num 2) (.item (.var "base_stats") (.var "i"))) (.item (.self "ivs") (.var "i"))) (.self "level")) (.num 0x64))))
      (.seq
       (.ite (.cmp .eq (.var "i") (.num 0))
        (.assign (.item (.self "stats") (.var "i")) (.bin .add (.bin .add (.var "stat") (.self "level")) (.num 0xA)))
        (.assign (.item (.self "stats") (.var "i")) (.call "compute_stat" (.cons (.bin .add (.var "stat") (.num 5)) (.cons (.self "nature") (.cons (.var "i") .nil))))))
      (.seq
       (.assign (.var "index") (.item (.var "CHAR_ORDER") (.bin .add (.var "ec_index") (.var "i"))))
      (.ite (.cmp .gt (.item (.self "ivs") (.item (.var "ORDER") (.var "index"))) (.var "max_iv"))
       (.seq
        (.assign (.var "char_index") (.var "index"))
       (.assign (.var "max_iv") (.item (.self "ivs") (.item (.var "ORDER") (.var "index")))))
       .pass)))))))
    (.seq
     (.assign (.self "hidden_power") (.bin .floordiv (.bin .mul (.var "hidden_power_val") (.num 0xF)) (.num 0x3F)))
    (.seq
     (.assign (.self "hidden_power_strength") (.bin .add (.num 0x1E) (.call "/" (.cons (.bin .mul (.var "hidden_power_strength_value") (.num 0x28)) (.cons (.num 0x3F) .nil)))))
    (.assign (.self "characteristic") (.bin .add (.bin .mul (.var "char_index") (.num 5)) (.bin .mod (.var "max_iv") (.num 5)))))))))))))))

/-- `gen3/state.py:79-103`
```
    def __init__(
        self,
        advance: np.uint32,
        pid: np.uint32,
        species: np.uint16,
        form: np.uint8,
        ivs: array_type(np.uint8),
        ability: np.uint8,
        level: np.uint8,
        shiny: np.uint8,
        info: PersonalInfoProtocol,
    ) -> None:
        self.advance = np.uint32(advance)
        self.pid = np.uint32(pid)
        self.species = np.uint16(species)
        self.form = np.uint8(form)
        self.ivs = np.empty(6, np.uint8)
        self.ivs[:] = ivs
        self.ability = np.uint8(ability)
        # no HA in g3
        self.ability_index = info.ability_1 if ability == 0 else info.ability_2
        self.level = np.uint8(level)
        self.shiny = np.uint8(shiny)
        self.stats = np.empty(6, np.uint16)
        self.update_stats(info)
``` -/
def GeneratorState.__init__ : Fun where
  params := ["advance", "pid", "species", "form", "ivs", "ability", "level", "shiny", "info"]
  body :=
    (.seq
     (.assign (.self "advance") (.cast u32 (.var "advance")))
    (.seq
     (.assign (.self "pid") (.cast u32 (.var "pid")))
    (.seq
     (.assign (.self "species") (.cast u16 (.var "species")))
    (.seq
     (.assign (.self "form") (.cast u8 (.var "form")))
    (.seq
     (.assign (.self "ivs") (.call "np.empty.uint8" (.cons (.num 6) .nil)))
    (.seq
     (.expr (.call "[:]=" (.cons (.self "ivs") (.cons (.var "ivs") .nil))))
    (.seq
     (.assign (.self "ability") (.cast u8 (.var "ability")))
    (.seq
     (.assign (.self "ability_index") (.ite (.cmp .eq (.var "ability") (.num 0)) (.attr (.var "info") "ability_1") (.attr (.var "info") "ability_2")))
    (.seq
     (.assign (.self "level") (.cast u8 (.var "level")))
    (.seq
     (.assign (.self "shiny") (.cast u8 (.var "shiny")))
    (.seq
     (.assign (.self "stats") (.call "np.empty.uint16" (.cons (.num 6) .nil)))
    (.expr (.meth "update_stats" (.cons (.var "info") .nil))))))))))))))

/-! ### data/personal/__init__.py -/

/-- `data/personal/__init__.py:70-77`
```
@optional_njit
def get_info_table_3(game: Game) -> list[PersonalInfo3]:
    """Get PersonalInfo Table based on game"""
    if game & (Game.RUBY | Game.SAPPHIRE):
        return PERSONAL_INFO_RS
    if game & (Game.EMERALD):
        return PERSONAL_INFO_E
    return PERSONAL_INFO_FR if game & (Game.FIRE_RED) else PERSONAL_INFO_LG
``` -/
def get_info_table_3 : Fun where
  params := ["game"]
  body :=
    (.seq
     (.ite (.bin .and (.var "game") (.bin .or (.var "Game.RUBY") (.var "Game.SAPPHIRE")))
      (.ret (.var "PERSONAL_INFO_RS"))
      .pass)
    (.seq
     (.ite (.bin .and (.var "game") (.var "Game.EMERALD"))
      (.ret (.var "PERSONAL_INFO_E"))
      .pass)
    (.ret (.ite (.bin .and (.var "game") (.var "Game.FIRE_RED")) (.var "PERSONAL_INFO_FR") (.var "PERSONAL_INFO_LG")))))

/-! ### gen3/wild_generator_3.py -/

/-- `gen3/wild_generator_3.py:30-47`
```
    def __init__(
        self,
        method: Method,
        encounter: Encounter,
        lead: Lead,
        game: Game,
        tid: np.uint16,
        sid: np.uint16,
    ) -> None:
        self.method = np.uint8(method)
        self.encounter = np.uint8(encounter)
        self.game = np.uint8(game)
        # leads only function in emerald
        self.lead = (
            np.uint8(lead) if (self.game & Game.EMERALD) else np.uint8(Lead.NONE)
        )
        self.tsv = np.uint16(tid ^ sid)
        self.personal_info_table = get_info_table_3(self.game)
``` -/
def WildGenerator3.__init__ : Fun where
  params := ["method", "encounter", "lead", "game", "tid", "sid"]
  body :=
    (.seq
     (.assign (.self "method") (.cast u8 (.var "method")))
    (.seq
     (.assign (.self "encounter") (.cast u8 (.var "encounter")))
    (.seq
     (.assign (.self "game") (.cast u8 (.var "game")))
    (.seq
     (.assign (.self "lead") (.ite (.bin .and (.self "game") (.var "Game.EMERALD")) (.cast u8 (.var "lead")) (.cast u8 (.var "Lead.NONE"))))
    (.seq
     (.assign (.self "tsv") (.cast u16 (.bin .xor (.var "tid") (.var "sid"))))
    (.assign (.self "personal_info_table") (.call "get_info_table_3" (.cons (.self "game") .nil))))))))

/-- `gen3/wild_generator_3.py:49-53`
```
    def cute_charm_check(self, pid: np.uint32, info: PersonalInfo3) -> np.bool_:
        """Check if a pid needs cute charm correction"""
        if self.lead == Lead.CUTE_CHARM_F:
            return (pid & 0xFF) >= info.gender_ratio
        return (pid & 0xFF) < info.gender_ratio
``` -/
def WildGenerator3.cute_charm_check : Fun where
  params := ["pid", "info"]
  body :=
    (.seq
     (.ite (.cmp .eq (.self "lead") (.var "Lead.CUTE_CHARM_F"))
      (.ret (.cmp .ge (.bin .and (.var "pid") (.num 0xFF)) (.attr (.var "info") "gender_ratio")))
      .pass)
    (.ret (.cmp .lt (.bin .and (.var "pid") (.num 0xFF)) (.attr (.var "info") "gender_ratio"))))

/-- `gen3/wild_generator_3.py:55-149`
```
    def generate(
        self,
        seed: np.uint32,
        delay: np.uint32,
        initial_advances: np.uint32,
        max_advances: np.uint32,
        encounter_area: EncounterArea3,
    ) -> list[GeneratorState]:
        """Generate states from seed"""
        states = TypedList()
        modified_slots = encounter_area_3.get_modified_slots(
            encounter_area,
            self.encounter,
            self.lead,
            self.game,
            self.personal_info_table,
        )
        rate = encounter_area_3.get_encounter_rate(encounter_area, self.encounter) * 16
        rse_safari = encounter_area_3.is_rse_safari_zone(encounter_area, self.game)
        rse = self.game & (Game.RUBY | Game.SAPPHIRE | Game.EMERALD)
        cute_charm = False
        rng = PokeRNGMod(seed)
        go = PokeRNGMod(0)
        rng.jump(initial_advances + delay)
        for advance in range(initial_advances, initial_advances + max_advances):
            go.re_init(rng.seed)

            # RSE uses main rng to check for rock smash encounters
            if rse and self.encounter == Encounter.ROCK_SMASH and rand_2880(go) >= rate:
                continue

            encounter_slot = encounter_area_3.calculate_hslot_lead(
                encounter_area, go, self.encounter, self.lead, modified_slots
            )
            species = encounter_slot.species & 0x7FF
            form = encounter_slot.species >> 11
            level = encounter_area_3.calculate_level(
                encounter_slot, go, self.lead == Lead.PRESSURE
            )
            info = self.personal_info_table[species]
            if self.lead == Lead.CUTE_CHARM_M or self.lead == Lead.CUTE_CHARM_F:
                if 0 < info.gender_ratio < 254:
                    cute_charm = False
                else:
                    cute_charm = rand_3(go) != 0

            # pokeblocks
            if rse_safari:
                go.next()

            if self.lead <= Lead.SYNCHRONIZE_QUIRKY:
                search_nature = self.lead if rand_2(go) == 0 else rand_25(go)
            else:
                search_nature = rand_25(go)

            pid = go.next_u16() | (go.next_u16() << 16)
            while (
                ((pid % 25) != search_nature)
                or (cute_charm and not self.cute_charm_check(pid, info))
                or (species == 201 and not unown_check(pid, form))
            ):
                pid = go.next_u16() | (go.next_u16() << 16)

            if self.method == Method.METHOD_2:
                go.next()
            iv1 = go.next_u16()
            if self.method == Method.METHOD_4:
                go.next()
            iv2 = go.next_u16()

            ivs = np.empty(6, np.uint8)
            ivs[0] = iv1 & 0x1F
            ivs[1] = (iv1 >> 5) & 0x1F
            ivs[2] = (iv1 >> 10) & 0x1F
            ivs[3] = (iv2 >> 5) & 0x1F
            ivs[4] = (iv2 >> 10) & 0x1F
            ivs[5] = iv2 & 0x1F

            state = GeneratorState(
                advance,
                pid,
                species,
                form,
                ivs,
                pid & 1,
                level,
                get_shiny(pid, self.tsv),
                info,
            )

            states.append(state)

            rng.next()

        return states
``` -/
def WildGenerator3.generate : Fun where
  params := ["seed", "delay", "initial_advances", "max_advances", "encounter_area"]
  body :=
    (.seq
     (.assign (.var "states") (.call "TypedList" .nil))
    (.seq
     (.assign (.var "modified_slots") (.call "get_modified_slots" (.cons (.var "encounter_area") (.cons (.self "encounter") (.cons (.self "lead") (.cons (.self "game") (.cons (.self "personal_info_table") .nil)))))))
    (.seq
     (.assign (.var "rate") (.bin .mul (.call "get_encounter_rate" (.cons (.var "encounter_area") (.cons (.self "encounter") .nil))) (.num 0x10)))
    (.seq
     (.assign (.var "rse_safari") (.call "is_rse_safari_zone" (.cons (.var "encounter_area") (.cons (.self "game") .nil))))
    (.seq
     (.assign (.var "rse") (.bin .and (.self "game") (.bin .or (.bin .or (.var "Game.RUBY") (.var "Game.SAPPHIRE")) (.var "Game.EMERALD"))))
    (.seq
     (.assign (.var "cute_charm") (.bool false))
    (.seq
     (.assign (.var "rng") (.call "PokeRNGMod" (.cons (.var "seed") .nil)))
    (.seq
     (.assign (.var "go") (.call "PokeRNGMod" (.cons (.num 0) .nil)))
    (.seq
     (.expr (.call ".jump" (.cons (.var "rng") (.cons (.bin .add (.var "initial_advances") (.var "delay")) .nil))))
    (.seq
     (.for "advance" (.call "range" (.cons (.var "initial_advances") (.cons (.bin .add (.var "initial_advances") (.var "max_advances")) .nil)))
      (.seq
       (.expr (.call ".re_init" (.cons (.var "go") (.cons (.attr (.var "rng") "seed") .nil))))
      (.seq
       (.ite (.and (.var "rse") (.and (.cmp .eq (.self "encounter") (.var "Encounter.ROCK_SMASH")) (.cmp .ge (.call "rand_2880" (.cons (.var "go") .nil)) (.var "rate"))))
        .continue
        .pass)
      (.seq
       (.assign (.var "encounter_slot") (.call "calculate_hslot_lead" (.cons (.var "encounter_area") (.cons (.var "go") (.cons (.self "encounter") (.cons (.self "lead") (.cons (.var "modified_slots") .nil)))))))
      (.seq
       (.assign (.var "species") (.bin .and (.attr (.var "encounter_slot") "species") (.num 0x7FF)))
      (.seq
       (.assign (.var "form") (.bin .shr (.attr (.var "encounter_slot") "species") (.num 0xB)))
      (.seq
       (.assign (.var "level") (.call "calculate_level" (.cons (.var "encounter_slot") (.cons (.var "go") (.cons (.cmp .eq (.self "lead") (.var "Lead.PRESSURE")) .nil)))))
      (.seq
       (.assign (.var "info") (.item (.self "personal_info_table") (.var "species")))
      (.seq
       (.ite (.or (.cmp .eq (.self "lead") (.var "Lead.CUTE_CHARM_M")) (.cmp .eq (.self "lead") (.var "Lead.CUTE_CHARM_F")))
        (.ite (.and (.cmp .lt (.num 0) (.attr (.var "info") "gender_ratio")) (.cmp .lt (.attr (.var "info") "gender_ratio") (.num 0xFE)))
         (.assign (.var "cute_charm") (.bool false))
         (.assign (.var "cute_charm") (.cmp .ne (.call "rand_3" (.cons (.var "go") .nil)) (.num 0))))
        .pass)
      (.seq
       (.ite (.var "rse_safari")
        (.expr (.call ".next" (.cons (.var "go") .nil)))
        .pass)
      (.seq
       (.ite (.cmp .le (.self "lead") (.var "Lead.SYNCHRONIZE_QUIRKY"))
        (.assign (.var "search_nature") (.ite (.cmp .eq (.call "rand_2" (.cons (.var "go") .nil)) (.num 0)) (.self "lead") (.call "rand_25" (.cons (.var "go") .nil))))
        (.assign (.var "search_nature") (.call "rand_25" (.cons (.var "go") .nil))))
      (.seq
       (.assign (.var "pid") (.bin .or (.call ".next_u16" (.cons (.var "go") .nil)) (.bin .shl (.call ".next_u16" (.cons (.var "go") .nil)) (.num 0x10))))
      (.seq
       (.while (.or (.cmp .ne (.bin .mod (.var "pid") (.num 0x19)) (.var "search_nature")) (.or (.and (.var "cute_charm") (.not (.meth "cute_charm_check" (.cons (.var "pid") (.cons (.var "info") .nil))))) (.and (.cmp .eq (.var "species") (.num 0xC9)) (.not (.call "unown_check" (.cons (.var "pid") (.cons (.var "form") .nil)))))))
        (.assign (.var "pid") (.bin .or (.call ".next_u16" (.cons (.var "go") .nil)) (.bin .shl (.call ".next_u16" (.cons (.var "go") .nil)) (.num 0x10)))))
      (.seq
       (.ite (.cmp .eq (.self "method") (.var "Method.METHOD_2"))
        (.expr (.call ".next" (.cons (.var "go") .nil)))
        .pass)
      (.seq
       (.assign (.var "iv1") (.call ".next_u16" (.cons (.var "go") .nil)))
      (.seq
       (.ite (.cmp .eq (.self "method") (.var "Method.METHOD_4"))
        (.expr (.call ".next" (.cons (.var "go") .nil)))
        .pass)
      (.seq
       (.assign (.var "iv2") (.call ".next_u16" (.cons (.var "go") .nil)))
      (.seq
       (.assign (.var "ivs") (.call "np.empty.uint8" (.cons (.num 6) .nil)))
      (.seq
       (.assign (.item (.var "ivs") (.num 0)) (.bin .and (.var "iv1") (.num 0x1F)))
      (.seq
       (.assign (.item (.var "ivs") (.num 1)) (.bin .and (.bin .shr (.var "iv1") (.num 5)) (.num 0x1F)))
      (.seq
       (.assign (.item (.var "ivs") (.num 2)) (.bin .and (.bin .shr (.var "iv1") (.num 0xA)) (.num 0x1F)))
      (.seq
       (.assign (.item (.var "ivs") (.num 3)) (.bin .and (.bin .shr (.var "iv2") (.num 5)) (.num 0x1F)))
      (.seq
       (.assign (.item (.var "ivs") (.num 4)) (.bin .and (.bin .shr (.var "iv2") (.num 0xA)) (.num 0x1F)))
      (.seq
       (.assign (.item (.var "ivs") (.num 5)) (.bin .and (.var "iv2") (.num 0x1F)))
      (.seq
       (.assign (.var "state") (.call "GeneratorState" (.cons (.var "advance") (.cons (.var "pid") (.cons (.var "species") (.cons (.var "form") (.cons (.var "ivs") (.cons (.bin .and (.var "pid") (.num 1)) (.cons (.var "level") (.cons (.call "get_shiny" (.cons (.var "pid") (.cons (.self "tsv") .nil))) (.cons (.var "info") .nil)))))))))))
      (.seq
       (.assign (.var "states") (.call ".append" (.cons (.var "states") (.cons (.var "state") .nil))))
      (.expr (.call ".next" (.cons (.var "rng") .nil)))))))))))))))))))))))))))))
    (.ret (.var "states"))))))))))))

/-! ### rng_list.py -/

/-- `rng_list.py:71-76`
```
        def re_init(self):
            """Reinitialize without creating a new object"""
            self.head = 0
            self.pointer = 0
            for i in range(size):
                self.list[i] = next_function(self.rng)
``` -/
def RNGList.re_init : Fun where
  params := []
  body :=
    (.seq
     (.assign (.self "head") (.num 0))
    (.seq
     (.assign (.self "pointer") (.num 0))
    (.for "i" (.call "range" (.cons (.var "size") .nil))
     (.assign (.item (.self "list") (.var "i")) (.call "next_function" (.cons (.self "rng") .nil))))))

/-- `rng_list.py:78-82`
```
        def advance_states(self, adv: np.uint32) -> None:
            """Advance the state of the RNGList by adv"""
            adv = np.uint32(adv)
            for _ in range(adv):
                self.advance_state()
``` -/
def RNGList.advance_states : Fun where
  params := ["adv"]
  body :=
    (.seq
     (.assign (.var "adv") (.cast u32 (.var "adv")))
    (.for "_" (.call "range" (.cons (.var "adv") .nil))
     (.expr (.meth "advance_state" .nil))))

/-- `rng_list.py:84-89`
```
        def advance_state(self) -> None:
            """Advance the state of the RNGList by one"""
            self.list[self.head] = next_function(self.rng)
            self.head = (self.head + 1) & (size - 1)

            self.pointer = self.head
``` -/
def RNGList.advance_state : Fun where
  params := []
  body :=
    (.seq
     (.assign (.item (.self "list") (.self "head")) (.call "next_function" (.cons (.self "rng") .nil)))
    (.seq
     (.assign (.self "head") (.bin .and (.bin .add (.self "head") (.num 1)) (.bin .sub (.var "size") (.num 1))))
    (.assign (.self "pointer") (.self "head"))))

/-- `rng_list.py:91-94`
```
        def advance(self, adv: np.uint32) -> None:
            """Advance within the state by adv"""
            adv = np.uint32(adv)
            self.pointer = (self.pointer + adv) & (size - 1)
``` -/
def RNGList.advance : Fun where
  params := ["adv"]
  body :=
    (.seq
     (.assign (.var "adv") (.cast u32 (.var "adv")))
    (.assign (.self "pointer") (.bin .and (.bin .add (.self "pointer") (.var "adv")) (.bin .sub (.var "size") (.num 1)))))

/-- `rng_list.py:96-101`
```
        def get_value(self):
            """Get value of the next rand"""
            result = self.list[self.pointer]
            self.pointer += 1
            self.pointer &= size - 1
            return result
``` -/
def RNGList.get_value : Fun where
  params := []
  body :=
    (.seq
     (.assign (.var "result") (.item (.self "list") (.self "pointer")))
    (.seq
     (.aug .add (.self "pointer") (.num 1))
    (.seq
     (.aug .and (.self "pointer") (.bin .sub (.var "size") (.num 1)))
    (.ret (.var "result")))))

end Verif.Py.Source
