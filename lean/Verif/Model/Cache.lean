import Verif.Model.Basic
import Mathlib.Logic.Function.Basic
/-
Model of `pickle_cached` and its two uses, data/encounter/__init__.py:27-51, 188, 298-321.

The file system is a map from paths to file contents. `pickle` is a pair of functions `dumps`/`loads` (its laws are
hypotheses of the theorems, see `Pickle.Lawful`). The wrapped function is a function of its argument that may raise.
Not modelled: creation of the cache directory, file-system errors, several processes at once, object identity.
-/
namespace Verif.Cache

abbrev Path := List Char
abbrev Bytes := List (BitVec 8)
abbrev FS := Path → Option Bytes

/-- put `s` before a successful result -/
def prepend (s : List Char) : Except PyErr (List Char) → Except PyErr (List Char)
  | .ok t => .ok (s ++ t)
  | .error e => .error e

/-- `str.format` with positional arguments: `{}` takes the next argument, `{{` and `}}` are escaped braces. A
replacement field with content (`{x}`) or a lone brace is not modelled further (`.other`). -/
def format : List Char → List (List Char) → Except PyErr (List Char)
  | [], _ => .ok []
  | [c], _ => if c = '{' ∨ c = '}' then .error .other else .ok [c]
  | c :: d :: t, args =>
    if c = '{' then
      if d = '{' then prepend ['{'] (format t args)
      else if d = '}' then
        match args with
        | a :: args => prepend a (format t args)
        | [] => .error .indexError
      else .error .other
    else if c = '}' then
      if d = '}' then prepend ['}'] (format t args) else .error .other
    else prepend [c] (format (d :: t) args)
  termination_by t => t.length

/-- the `pickle` module on values of type `S` -/
structure Pickle (S : Type) where
  dumps : S → Bytes
  loads : Bytes → Except PyErr S

/-- What is assumed of `pickle`: loading a complete dump gives the value back, a dump is not empty, and a dump cut off
before its end (before its STOP opcode) does not load. -/
structure Pickle.Lawful {S : Type} (p : Pickle S) : Prop where
  loads_dumps : ∀ s, p.loads (p.dumps s) = .ok s
  nonempty : ∀ s, p.dumps s ≠ []
  truncated : ∀ s n, 0 < n → n < (p.dumps s).length → ∃ e, p.loads ((p.dumps s).take n) = .error e

/-- A use of `@pickle_cached(filename, encode, decode)` on a one-argument function (`encode`/`decode` are identities
where the code passes `None`). `render` is the argument formatted by `{}`. -/
structure Loader (A S V : Type) where
  filename : List Char
  render : A → List Char
  pickle : Pickle S
  encode : V → S
  decode : S → V
  function : A → Except PyErr V

/-- `__init__.py:30` and `:34`: the file used for positional arguments `args` -/
def pklFilename (L : Loader A S V) (dir : List Char) (args : List A) : Except PyErr Path :=
  format (dir ++ '/' :: L.filename) (args.map L.render)

/-- `__init__.py:35-42`: the data of an existing file that is not empty -/
def hit (fs : FS) (path : Path) : Option Bytes :=
  match fs path with
  | some (b :: bs) => some (b :: bs)
  | _ => none

/-- `__init__.py:33-49` `wrapped(a)`: the outcome and the file system afterwards -/
def wrapped (L : Loader A S V) (dir : List Char) (a : A) (fs : FS) : Except PyErr V × FS :=
  match pklFilename L dir [a] with
  | .error e => (.error e, fs)
  | .ok path =>
    match hit fs path with
    | some data =>
      match L.pickle.loads data with
      | .ok s => (.ok (L.decode s), fs)
      | .error e => (.error e, fs)
    | none =>
      match L.function a with
      | .error e => (.error e, fs)
      | .ok r => (.ok r, Function.update fs path (some (L.pickle.dumps (L.encode r))))

/-- `wrapped(name=a)`: the argument is passed by keyword; the file name is formatted without positional arguments,
which fails before anything else happens (the file names of both uses contain one `{}`) -/
def wrappedKeyword (L : Loader A S V) (dir : List Char) (_ : A) (fs : FS) : Except PyErr V × FS :=
  match pklFilename L dir [] with
  | .error e => (.error e, fs)
  | .ok _ => (.error .other, fs)

/-- The process dies during `wrapped(a)`. `k = 0`: before the file is opened for writing; `k + 1`: the file was opened
(and so emptied, `__init__.py:44`) and `k` bytes of the dump reached it. -/
def crashed (L : Loader A S V) (dir : List Char) (a : A) (k : Nat) (fs : FS) : FS :=
  match pklFilename L dir [a] with
  | .error _ => fs
  | .ok path =>
    match hit fs path with
    | some _ => fs
    | none =>
      match L.function a, k with
      | .ok r, k + 1 => Function.update fs path (some ((L.pickle.dumps (L.encode r)).take k))
      | _, _ => fs

/-- `format(x)` of an `IntEnum` member: its value in decimal -/
def decimal (n : Nat) : List Char := Nat.toDigits 10 n

/-- `__init__.py:188-189`: `load_encounter_3` with the cache, the argument being the value of the `Game` member -/
def gen3Loader (p : Pickle V) (f : Nat → Except PyErr V) : Loader Nat V V where
  filename := "encounter_3_{}.pkl".toList
  render := decimal
  pickle := p
  encode := id
  decode := id
  function := f

/-! ### the encoding used for Legends Arceus -/

/-- An `EncounterAreaLA` instance: table id and slots (`encounter_area_la.py:33-41`) -/
structure AreaLA (Slot : Type) where
  tableId : BitVec 64
  slots : List Slot
  deriving DecidableEq

/-- a dictionary, as the list of its entries in insertion order -/
abbrev Dict (K V : Type) := List (K × V)

/-- `d[k] = v`: an existing key keeps its place -/
def Dict.insert [DecidableEq K] : Dict K V → K → V → Dict K V
  | [], k, v => [(k, v)]
  | (k', v') :: d, k, v => if k' = k then (k, v) :: d else (k', v') :: Dict.insert d k v

/-- `d[k]` -/
def Dict.get [DecidableEq K] : Dict K V → K → Option V
  | [], _ => none
  | (k', v') :: d, k => if k' = k then some v' else Dict.get d k

/-- `__init__.py:309-314` `encounter_tables_la_encode`: a dictionary from integers to (table id, slots) -/
def encodeLoop (typedDict : Dict (BitVec 64) (AreaLA Slot)) :
    List (BitVec 64 × AreaLA Slot) → Dict Nat (BitVec 64 × List Slot) → Dict Nat (BitVec 64 × List Slot)
  | [], acc => acc
  | (key, _) :: rest, acc =>
    match Dict.get typedDict key with
    | some value => encodeLoop typedDict rest (Dict.insert acc key.toNat (value.tableId, value.slots))
    | none => encodeLoop typedDict rest acc

/-- `__init__.py:309-314` -/
def encodeLA (typedDict : Dict (BitVec 64) (AreaLA Slot)) : Dict Nat (BitVec 64 × List Slot) :=
  encodeLoop typedDict typedDict []

/-- `__init__.py:302-306`; `np.uint64(key)` takes the key modulo 2^64 -/
def decodeLoop : List (Nat × BitVec 64 × List Slot) → Dict (BitVec 64) (AreaLA Slot) → Dict (BitVec 64) (AreaLA Slot)
  | [], acc => acc
  | (key, tableId, slots) :: rest, acc => decodeLoop rest (Dict.insert acc (BitVec.ofNat 64 key) ⟨tableId, slots⟩)

/-- `__init__.py:298-307` `encounter_tables_la_decode` -/
def decodeLA (regularDict : Dict Nat (BitVec 64 × List Slot)) : Dict (BitVec 64) (AreaLA Slot) :=
  decodeLoop regularDict []

/-- `__init__.py:316-321`: `load_encounter_tables_la` with the cache, the argument being the value of the `LAArea`
member -/
def laLoader (p : Pickle (Dict Nat (BitVec 64 × List Slot))) (f : Nat → Except PyErr (Dict (BitVec 64) (AreaLA Slot))) :
    Loader Nat (Dict Nat (BitVec 64 × List Slot)) (Dict (BitVec 64) (AreaLA Slot)) where
  filename := "encounter_tables_la_{}.pkl".toList
  render := decimal
  pickle := p
  encode := encodeLA
  decode := decodeLA
  function := f

end Verif.Cache
