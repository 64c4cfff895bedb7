import Verif.Model.Basic
/-
Model of data/fbs/flatbuffer_object.py and data/fbs/encounter_la.py.

The buffer is a list of bytes. The `flatbuffers` package (23.5.26, not part of the repository) is modelled by the four
`Table` methods the code uses and by `encode.Get`. Offsets are integers; a float value is its 32-bit pattern.
-/
namespace Verif.FlatBuffer

abbrev Bytes := List (BitVec 8)

/-- the unsigned little-endian value of some bytes -/
def fromLE : Bytes → Nat
  | [] => 0
  | b :: bs => b.toNat + 256 * fromLE bs

/-- `flatbuffers.encode.Get` with a packer of `w` bytes: `struct.unpack_from`, which counts a negative offset from the
end and raises `struct.error` outside the buffer -/
def encodeGet (w : Nat) (buf : Bytes) (off : Int) : Except PyErr Nat :=
  if off < 0 then
    if off + w > 0 ∨ off + buf.length < 0 then .error .structError
    else .ok (fromLE ((buf.drop (off + buf.length).toNat).take w))
  else if (buf.length : Int) - off < w then .error .structError
  else .ok (fromLE ((buf.drop off.toNat).take w))

/-- `flatbuffers.number_types.enforce_number(off, UOffsetTFlags)` -/
def enforceOffset (off : Int) : Except PyErr Unit :=
  if 0 ≤ off ∧ off ≤ 4294967295 then .ok () else .error .typeError

/-- two's complement reading of a `w`-byte value -/
def signed (w : Nat) (x : Nat) : Int := if x < 2 ^ (8 * w - 1) then x else (x : Int) - 2 ^ (8 * w)

/-- `flatbuffers.table.Table.Get` of `w` bytes, unsigned -/
def tableGet (w : Nat) (buf : Bytes) (off : Int) : Except PyErr Nat := do
  enforceOffset off
  encodeGet w buf off

/-- `flatbuffers.table.Table.Offset` of the table at `pos` -/
def tableOffset (buf : Bytes) (pos : Nat) (vtableOffset : Nat) : Except PyErr Nat := do
  let vtable := (pos : Int) - signed 4 (← tableGet 4 buf pos)
  let vtableEnd ← tableGet 2 buf vtable
  if vtableOffset < vtableEnd then tableGet 2 buf (vtable + vtableOffset) else pure 0

/-- `flatbuffers.table.Table.Indirect` -/
def tableIndirect (buf : Bytes) (off : Nat) : Except PyErr Nat := do
  enforceOffset off
  pure (off + (← encodeGet 4 buf off))

/-- `flatbuffers.table.Table.VectorLen` -/
def tableVectorLen (buf : Bytes) (pos off : Nat) : Except PyErr Nat := do
  enforceOffset off
  let off := off + pos
  let off := off + (← encodeGet 4 buf off)
  encodeGet 4 buf off

/-- `flatbuffers.table.Table.Vector` -/
def tableVector (buf : Bytes) (pos off : Nat) : Except PyErr Nat := do
  enforceOffset off
  let off := off + pos
  let x := off + (← tableGet 4 buf off)
  pure (x + 4)

/-! ### flatbuffer_object.py -/

/-- `flatbuffer_object.py:42-44`: the offset of the root object -/
def rootOffset (buf : Bytes) : Except PyErr Nat := encodeGet 4 buf 0

/-- the scalar types used, `flatbuffer_object.py:11-20` -/
inductive Scalar where
  | i8
  | i32
  | u64
  | f32
  deriving DecidableEq, Repr

/-- bytes of a scalar -/
def Scalar.width : Scalar → Nat
  | .i8 => 1
  | .i32 => 4
  | .u64 => 8
  | .f32 => 4

/-- the Python number; a float is given by its bit pattern -/
def Scalar.decode : Scalar → Nat → Int
  | .i8, x => signed 1 x
  | .i32, x => signed 4 x
  | .u64, x => x
  | .f32, x => x

/-- `read_int`/`read_float`/`read_int_enum`, `flatbuffer_object.py:53-78`; `none` stands for the default -/
def readScalar (buf : Bytes) (pos : Nat) (ty : Scalar) (position : Nat) : Except PyErr (Option Int) := do
  let o ← tableOffset buf pos position
  if o ≠ 0 then pure (some (ty.decode (← tableGet ty.width buf (o + pos)))) else pure none

/-- `read_object`, `flatbuffer_object.py:103-109`; `make buf offset` is the constructor -/
def readObject {α : Type} (make : Bytes → Nat → Except PyErr α) (buf : Bytes) (pos position : Nat) :
    Except PyErr (Option α) := do
  let o ← tableOffset buf pos position
  if o ≠ 0 then
    let val ← tableIndirect buf (o + pos)
    pure (some (← make buf val))
  else pure none

/-- `flatbuffer_object.py:125-127`: the loop over `len` elements from `off` on -/
def objectLoop {α : Type} (make : Bytes → Nat → Except PyErr α) (buf : Bytes) : Nat → Nat → Except PyErr (List α)
  | _, 0 => pure []
  | off, len + 1 => do
    let val ← tableIndirect buf off
    let x ← make buf val
    pure (x :: (← objectLoop make buf (off + 4) len))

/-- `read_object_array`, `flatbuffer_object.py:118-128` -/
def readObjectArray {α : Type} (make : Bytes → Nat → Except PyErr α) (buf : Bytes) (pos position : Nat) :
    Except PyErr (List α) := do
  let o ← tableOffset buf pos position
  if o ≠ 0 then
    let array ← tableVector buf pos o
    let len ← tableVectorLen buf pos o
    objectLoop make buf array len
  else pure []

/-- the `default` given to `read_string` -/
inductive Default (α : Type) where
  | none
  | str (s : α)
  | bytes (b : Bytes)

/-- `read_string`, `flatbuffer_object.py:137-145`; `decode` is `bytes.decode("utf-8")`. The slice is cut at the end of
the buffer. The default is decoded too: neither `None` nor a `str` has the attribute. -/
def readString {α : Type} (decode : Bytes → Except PyErr α) (buf : Bytes) (pos position : Nat) (d : Default α) :
    Except PyErr (Option α) := do
  let o ← tableOffset buf pos position
  if o ≠ 0 then
    let array ← tableVector buf pos o
    let len ← tableVectorLen buf pos o
    pure (some (← decode ((buf.drop array).take len)))
  else
    match d with
    | .bytes b => pure (some (← decode b))
    | _ => .error .attributeError

/-- a constructor: reads from the buffer and table position, `self._counter` is the state -/
abbrev Init (α : Type) := ReaderT (Bytes × Nat) (StateT Nat (Except PyErr)) α

/-- a read at `self._counter` that then advances the counter -/
def atCounter {α : Type} (read : Bytes → Nat → Nat → Except PyErr α) : Init α := fun e counter => do
  let value ← read e.1 e.2 counter
  pure (value, counter + 2)

/-- `read_init_int`, `read_init_float`, `read_init_int_enum`, `flatbuffer_object.py:80-101` -/
def readInit (ty : Scalar) : Init (Option Int) := atCounter fun buf pos c => readScalar buf pos ty c

/-- `read_init_object`, `flatbuffer_object.py:111-116` (also `read_init_vec3f`, 157-161) -/
def readInitObject {α : Type} (make : Bytes → Nat → Except PyErr α) : Init (Option α) :=
  atCounter fun buf pos c => readObject make buf pos c

/-- `read_init_object_array`, `flatbuffer_object.py:130-135` -/
def readInitArray {α : Type} (make : Bytes → Nat → Except PyErr α) : Init (List α) :=
  atCounter fun buf pos c => readObjectArray make buf pos c

/-- `read_init_padding`, `flatbuffer_object.py:163-165` -/
def readInitPadding (size : Nat) : Init Unit := modify (· + 2 * size)

/-- `FlatBufferObject.__init__` with an offset, `flatbuffer_object.py:41-47`, then the rest of the constructor -/
def construct {α : Type} (init : Init α) (buf : Bytes) (pos : Nat) : Except PyErr α := do
  let (x, _) ← (init.run (buf, pos)).run 4
  pure x

/-- `FlatBufferObject.__init__` of a root object -/
def constructRoot {α : Type} (init : Init α) (buf : Bytes) : Except PyErr α := do construct init buf (← rootOffset buf)

/-- `tuple(self.read_init_float(F32, default=0.0) for _ in range(n))`: patterns, 0.0 is pattern 0 -/
def readFloats : Nat → Init (List Int)
  | 0 => pure []
  | n + 1 => do
    let x := (← readInit .f32).getD 0
    pure (x :: (← readFloats n))

/-! ### encounter_la.py -/

/-- pattern of `1.0` as a 32-bit float -/
def f32One : Int := 0x3f800000

/-- `flatbuffer_object.py:168-179` -/
structure Vec3F where
  x : Option Int
  y : Option Int
  z : Option Int
  deriving DecidableEq, Repr

/-- `flatbuffer_object.py:171-175` -/
def vec3F : Bytes → Nat → Except PyErr Vec3F := construct do
  let x ← readInit .f32
  let y ← readInit .f32
  let z ← readInit .f32
  pure ⟨x, y, z⟩

/-- `encounter_la.py:22-42` -/
structure EncounterMultiplier8a where
  species : Option Int
  form : Int
  timeMultipliers : List Int
  weatherMultipliers : List Int
  deriving DecidableEq, Repr

/-- `encounter_la.py:25-42` -/
def encounterMultiplier8a : Bytes → Nat → Except PyErr EncounterMultiplier8a := construct do
  let species ← readInit .i32
  let form := (← readInit .i32).getD 0
  let time ← readFloats 4
  let weather ← readFloats 8
  pure ⟨species, form, time, f32One :: weather⟩

/-- `encounter_la.py:59-68` -/
structure PokeMisc8a where
  species : Option Int
  form : Int
  alphaLevelIndex : Int
  deriving DecidableEq, Repr

/-- `encounter_la.py:62-67` -/
def pokeMisc8a : Bytes → Nat → Except PyErr PokeMisc8a := construct do
  let species ← readInit .i32
  let form := (← readInit .i32).getD 0
  readInitPadding 4
  let alpha := (← readInit .i32).getD 0
  pure ⟨species, form, alpha⟩

/-- `encounter_la.py:121-128`: the coordinates -/
def placementParameters8a : Bytes → Nat → Except PyErr (Option Vec3F) := construct do
  readInitPadding 7
  readInitObject vec3F

/-- `encounter_la.py:112-118`: the encounter table id -/
def placementSpawner8aF20 : Bytes → Nat → Except PyErr (Option Int) := construct (readInit .u64)

/-- `encounter_la.py:86-109` -/
structure PlacementSpawner8a where
  spawnerId : Option Int
  groupId : Option Int
  coordinates : Option Vec3F
  minSpawnCount : Option Int
  maxSpawnCount : Option Int
  isMassOutbreak : Option Bool
  isWater : Option Bool
  isSky : Option Bool
  encounterTableId : Option Int
  deriving DecidableEq, Repr

/-- `[0]` -/
def first {α : Type} : List α → Except PyErr α
  | [] => .error .indexError
  | x :: _ => .ok x

/-- `bool(...)` of an integer read, kept `None` if absent -/
def toBool (x : Option Int) : Option Bool := x.map (· ≠ 0)

/-- `encounter_la.py:89-109` -/
def placementSpawner8a : Bytes → Nat → Except PyErr PlacementSpawner8a := construct do
  let spawnerId ← readInit .u64
  let groupId ← readInit .u64
  let coordinates ← (first (← readInitArray placementParameters8a) : Except PyErr _)
  readInitPadding 4
  let minSpawnCount ← readInit .i32
  let maxSpawnCount ← readInit .i32
  readInitPadding 1
  let isMassOutbreak := toBool (← readInit .i8)
  let isWater := toBool (← readInit .i8)
  let isSky := toBool (← readInit .i8)
  readInitPadding 7
  let tableId ← (first (← readInitArray placementSpawner8aF20) : Except PyErr _)
  pure ⟨spawnerId, groupId, coordinates, minSpawnCount, maxSpawnCount, isMassOutbreak, isWater, isSky, tableId⟩

/-- `encounter_la.py:179-198` -/
structure EncounterEligibilityTraits8a where
  timeMultipliers : List Int
  weatherMultipliers : List Int
  deriving DecidableEq, Repr

/-- `encounter_la.py:182-198` -/
def encounterEligibilityTraits8a : Bytes → Nat → Except PyErr EncounterEligibilityTraits8a := construct do
  readInitPadding 7
  let time ← readFloats 4
  let weather ← readFloats 8
  pure ⟨time, f32One :: weather⟩

/-- `encounter_la.py:201-207`: `is_alpha`; `any` stops at the first true value -/
def encounterOybnTraits8a : Bytes → Nat → Except PyErr Bool := construct do
  if toBool (← readInit .i8) = some true then pure true
  else pure (toBool (← readInit .i8) = some true)

/-- `encounter_la.py:157-176` -/
structure EncounterSlot8a where
  species : Option Int
  gender : Int
  form : Option Int
  guaranteedIvs : Option Int
  baseProbability : Option Int
  overrideMinLevel : Int
  overrideMaxLevel : Int
  eligibility : Option EncounterEligibilityTraits8a
  isAlpha : Bool
  deriving DecidableEq, Repr

/-- `encounter_la.py:160-176`; `None.is_alpha` raises `AttributeError` -/
def encounterSlot8a : Bytes → Nat → Except PyErr EncounterSlot8a := construct do
  let species ← readInit .i32
  readInitPadding 1
  let gender := (← readInit .i32).getD 0
  let form ← readInit .i32
  readInitPadding 21
  let guaranteedIvs ← readInit .i32
  readInitPadding 3
  let baseProbability ← readInit .i32
  let overrideMin := (← readInit .i32).getD 0
  let overrideMax := (← readInit .i32).getD 0
  readInitPadding 13
  let eligibility ← readInitObject encounterEligibilityTraits8a
  match ← readInitObject encounterOybnTraits8a with
  | none => (.error .attributeError : Except PyErr _)
  | some isAlpha =>
    pure ⟨species, gender, form, guaranteedIvs, baseProbability, overrideMin, overrideMax, eligibility, isAlpha⟩

/-- `encounter_la.py:144-154` -/
structure EncounterTable8a where
  tableId : Option Int
  minLevel : Option Int
  maxLevel : Option Int
  slots : List EncounterSlot8a
  deriving DecidableEq, Repr

/-- `encounter_la.py:147-154` -/
def encounterTable8a : Bytes → Nat → Except PyErr EncounterTable8a := construct do
  let tableId ← readInit .u64
  let minLevel ← readInit .i32
  let maxLevel ← readInit .i32
  let slots ← readInitArray encounterSlot8a
  pure ⟨tableId, minLevel, maxLevel, slots⟩

/-- `encounter_la.py:221-230` -/
structure NewHugeOutbreakGroup8a where
  hash : Option Int
  waveDetails : List (Option Int)
  firstWaveTableId : Option Int
  deriving DecidableEq, Repr

/-- `encounter_la.py:232-240`: the encounter table id -/
def newHugeOutbreakSecondWave8a : Bytes → Nat → Except PyErr (Option Int) := construct do
  readInitPadding 7
  readInit .u64

/-- `encounter_la.py:224-230` -/
def newHugeOutbreakGroup8a : Bytes → Nat → Except PyErr NewHugeOutbreakGroup8a := construct do
  let hash ← readInit .u64
  let waves ← readInitArray newHugeOutbreakSecondWave8a
  let first ← readInit .u64
  pure ⟨hash, waves, first⟩

/-- `encounter_la.py:276-282`: the hash -/
def newHugeOutbreakGroupLotteryDetail8a : Bytes → Nat → Except PyErr (Option Int) := construct (readInit .u64)

/-- `encounter_la.py:254-274` -/
structure NewHugeOutbreakGroupLottery8a where
  hash : Option Int
  tableCommon : List (Option Int)
  tableRare1 : List (Option Int)
  tableRare2 : List (Option Int)
  fullTable : List (Option Int)
  deriving DecidableEq, Repr

/-- `encounter_la.py:257-274` -/
def newHugeOutbreakGroupLottery8a : Bytes → Nat → Except PyErr NewHugeOutbreakGroupLottery8a := construct do
  let hash ← readInit .u64
  let common ← readInitArray newHugeOutbreakGroupLotteryDetail8a
  let rare1 ← readInitArray newHugeOutbreakGroupLotteryDetail8a
  let rare2 ← readInitArray newHugeOutbreakGroupLotteryDetail8a
  pure ⟨hash, common, rare1, rare2, common ++ rare1 ++ rare2⟩

/-- a root table: one array of objects, `encounter_la.py:11-14, 48-52, 73-77, 134-138, 212-216, 245-249` -/
def rootArray {α : Type} (make : Bytes → Nat → Except PyErr α) : Bytes → Except PyErr (List α) :=
  constructRoot (readInitArray make)

end Verif.FlatBuffer
