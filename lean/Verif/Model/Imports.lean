import Mathlib.Logic.Function.Basic
/-
Model of importing the modules of the package: the import statements and the resource files that module bodies read
(all `*.py` under numba_pokemon_prngs), run by Python's import system (parents first, `sys.modules`, a module whose body
raises is removed again).

Not modelled: what else a body does (definitions, decorators; the contents of the files are the subject of C90 to C94, C104 to
C107, C112, C116), imports from the standard library other than `typing.Annotated`, the namespaces of modules other than in the treatment of
cyclic imports.
-/
namespace Verif.Imports

/-- the modules of the package; `resources` and `resources/bin` have no `__init__.py` (namespace packages) -/
inductive Mod where
  | root | options | patch | compilation | compatability | fnv | util | rngList | sha1
  | enums | enumsDsType | enumsEncounter | enumsGame | enumsLaArea | enumsLaTime | enumsLaWeather | enumsLanguage
  | enumsLead | enumsMethod
  | lcrng | lcrng32 | lcrng64
  | mersenneTwister | mt | sfmt | tinymt
  | xorshift | xorshift128 | xoroshiro128plus
  | resources | resourcesBin | resourcesBinPersonal | resourcesEncount | resourcesEncountLa | resourcesTxt
  | data | dataUtil | dataFbs | dataFbsFlatbufferObject | dataFbsEncounterLa | dataPersonal | dataPersonalPersonalInfo
  | dataEncounter | dataEncounterArea3 | dataEncounterAreaLa
  | gen3 | gen3Util | gen3State | gen3EncounterArea3 | gen3WildGenerator3
  deriving DecidableEq, Repr

/-- other distributions (`numba` brings `llvmlite` with it) -/
inductive Ext where
  | numpy | numba | flatbuffers | typingExtensions | platformdirs
  deriving DecidableEq, Repr

/-- the resource files that are read while a module is imported -/
inductive File where
  | speciesEn | abilitiesEn | naturesEn | typesEn
  | personalRs | personalE | personalFr | personalLg | personalDp | personalPt | personalBw | personalB2w2
  | personalXy | personalAo | personalSm | personalUu | personalSwsh | personalBdsp | personalLa
  | rsJson | eJson | frlgJson
  | pokeEncount | pokeMisc | nhoLottery | nhoGroup
  | encounter1 | encounter2 | encounter3 | encounter4 | encounter5
  | spawner1 | spawner2 | spawner3 | spawner4 | spawner5
  | spawnerNames | encounterTableNames
  deriving DecidableEq, Repr

/-- the cache files of `pickle_cached` (data/encounter/__init__.py:188, 316) -/
inductive Cache where
  | ruby | sapphire | emerald | fireRed | leafGreen | la1 | la2 | la3 | la4 | la5
  deriving DecidableEq, Repr

/-- a cache file is missing (or empty), complete, or cut short -/
inductive CacheState where
  | absent | complete | cut
  deriving DecidableEq, Repr

/-- the resource file behind a cache file: data/encounter/__init__.py:53-59, 328 -/
def Cache.file : Cache → File
  | .ruby => .rsJson
  | .sapphire => .rsJson
  | .emerald => .eJson
  | .fireRed => .frlgJson
  | .leafGreen => .frlgJson
  | .la1 => .encounter1
  | .la2 => .encounter2
  | .la3 => .encounter3
  | .la4 => .encounter4
  | .la5 => .encounter5

/-- what a statement can depend on -/
inductive Req where
  /-- another distribution is installed -/
  | ext (x : Ext)
  /-- another distribution is installed, if numba is in use (`if USE_NUMBA:`) -/
  | extNumba (x : Ext)
  /-- the resource file is there -/
  | file (f : File)
  /-- `f"{x=}"` (Python 3.8) -/
  | selfDocumenting
  /-- `typing.Annotated` (Python 3.9) -/
  | annotated
  /-- `list[X]`, `tuple[X]` evaluated (Python 3.9) -/
  | generics
  deriving DecidableEq, Repr

inductive Stmt where
  | need (r : Req)
  | imp (m : Mod)
  /-- a call of a function decorated with `pickle_cached` -/
  | cached (c : Cache)
  deriving DecidableEq, Repr

inductive ImpErr where
  | moduleNotFound | fileNotFound | syntaxError | importError | typeError | unpickling | outOfFuel
  deriving DecidableEq, Repr

/-- the interpreter and what is installed -/
structure Env where
  /-- Python 3.`minor` -/
  minor : Nat
  installed : Ext → Bool
  file : File → Bool
  /-- the environment variable NPP_USE_NUMBA is "TRUE" or not set -/
  envVar : Bool

/-- options.py:7-14 -/
def Env.useNumba (e : Env) : Bool := e.envVar && e.installed .numba

/-- the package a module is in, which is imported before it -/
def parent : Mod → Option Mod
  | .root => none
  | .enumsDsType | .enumsEncounter | .enumsGame | .enumsLaArea | .enumsLaTime | .enumsLaWeather | .enumsLanguage
  | .enumsLead | .enumsMethod => some .enums
  | .lcrng32 | .lcrng64 => some .lcrng
  | .mt | .sfmt | .tinymt => some .mersenneTwister
  | .xorshift128 | .xoroshiro128plus => some .xorshift
  | .resourcesBin | .resourcesEncount | .resourcesTxt => some .resources
  | .resourcesBinPersonal => some .resourcesBin
  | .resourcesEncountLa => some .resourcesEncount
  | .dataUtil | .dataFbs | .dataPersonal | .dataEncounter => some .data
  | .dataFbsFlatbufferObject | .dataFbsEncounterLa => some .dataFbs
  | .dataPersonalPersonalInfo => some .dataPersonal
  | .dataEncounterArea3 | .dataEncounterAreaLa => some .dataEncounter
  | .gen3Util | .gen3State | .gen3EncounterArea3 | .gen3WildGenerator3 => some .gen3
  | _ => some .root

/-- `from numba... import` under `if USE_NUMBA:` -/
def ifNumba : Stmt := .need (.extNumba .numba)
/-- `import numpy as np` -/
def numpy : Stmt := .need (.ext .numpy)
/-- reading a resource file -/
def reads (f : File) : Stmt := .need (.file f)

/-- the body of each module: its import statements and the files it reads, in order -/
def body : Mod → List Stmt
  -- __init__.py:4-8; patch_numba_8e2063b() is patch.py:5-7
  | .root => [.imp .patch, ifNumba, numpy]
  | .options => []
  -- patch.py:2
  | .patch => [.imp .options]
  -- compilation.py:3-16
  | .compilation => [numpy, .imp .options, ifNumba]
  | .compatability => []
  -- fnv.py:3-4
  | .fnv => [numpy, .imp .compilation]
  -- util.py:2-3
  | .util => [numpy, .imp .compilation]
  -- rng_list.py:4-9
  | .rngList => [.need (.ext .typingExtensions), numpy, .imp .options, .imp .compilation]
  -- sha1.py:3-14
  | .sha1 => [numpy, .imp .lcrng, .imp .enums, .imp .util, .imp .compilation]
  -- enums/__init__.py:2-10
  | .enums => [.imp .enumsDsType, .imp .enumsEncounter, .imp .enumsGame, .imp .enumsLaArea, .imp .enumsLaTime,
      .imp .enumsLaWeather, .imp .enumsLanguage, .imp .enumsLead, .imp .enumsMethod]
  | .enumsDsType | .enumsEncounter | .enumsGame | .enumsLaArea | .enumsLaTime | .enumsLaWeather | .enumsLanguage
  | .enumsLead | .enumsMethod => []
  -- lcrng/__init__.py:2-11
  | .lcrng => [.imp .lcrng32, .imp .lcrng64]
  -- lcrng/lcrng32.py:3-8
  | .lcrng32 => [numpy, .imp .compilation, .imp .compatability]
  -- lcrng/lcrng64.py:3-8
  | .lcrng64 => [numpy, .imp .compilation, .imp .compatability]
  -- mersenne_twister/__init__.py:3-5
  | .mersenneTwister => [.imp .mt, .imp .sfmt, .imp .tinymt]
  -- mersenne_twister/mt.py:3-5
  | .mt => [numpy, .imp .compilation]
  -- mersenne_twister/sfmt.py:3-10, 123-126
  | .sfmt => [numpy, .imp .compilation, .imp .options, ifNumba]
  -- mersenne_twister/tinymt.py:3-5
  | .tinymt => [numpy, .imp .compilation]
  -- xorshift/__init__.py:3-4
  | .xorshift => [.imp .xorshift128, .imp .xoroshiro128plus]
  -- xorshift/xorshift128.py:3-5
  | .xorshift128 => [numpy, .imp .compilation]
  -- xorshift/xoroshiro128plus.py:3-6
  | .xoroshiro128plus => [numpy, .imp .util, .imp .compilation]
  | .resources | .resourcesBin | .resourcesBinPersonal | .resourcesEncountLa | .resourcesTxt => []
  -- resources/encount/__init__.py:1
  | .resourcesEncount => [.imp .resourcesEncountLa]
  -- data/__init__.py:3-28
  | .data => [.imp .resources, .imp .resourcesTxt, reads .speciesEn, reads .abilitiesEn, reads .naturesEn, reads .typesEn]
  -- data/util.py:3-6
  | .dataUtil => [.need (.ext .typingExtensions), numpy]
  | .dataFbs => []
  -- data/fbs/flatbuffer_object.py:3-9
  | .dataFbsFlatbufferObject => [.need (.ext .typingExtensions), .need (.ext .flatbuffers), numpy]
  -- data/fbs/encounter_la.py:3-5
  | .dataFbsEncounterLa => [numpy, .imp .dataFbsFlatbufferObject]
  -- data/personal/__init__.py:111 (the whole file is compiled first), 3-24, 44-66, 71
  | .dataPersonal => [.need .selfDocumenting, numpy, .imp .dataPersonalPersonalInfo, .imp .enums, .imp .resourcesBin,
      .imp .resourcesBinPersonal, .imp .compilation,
      reads .personalRs, reads .personalE, reads .personalFr, reads .personalLg, reads .personalDp, reads .personalPt,
      reads .personalBw, reads .personalB2w2, reads .personalXy, reads .personalAo, reads .personalSm, reads .personalUu,
      reads .personalSwsh, reads .personalBdsp, reads .personalLa, .need .generics]
  -- data/personal/personal_info.py:3-4
  | .dataPersonalPersonalInfo => [numpy, .imp .dataUtil]
  -- data/encounter/__init__.py:3-25, 189, 271-277, 387-401, 405-414, 416-432, 434-442
  | .dataEncounter => [numpy, .need (.ext .platformdirs), .imp .dataEncounterArea3, .imp .dataEncounterAreaLa,
      .imp .dataFbsEncounterLa, .imp .data, .imp .resources, .imp .resourcesEncount, .imp .enums, .imp .compilation,
      .imp .fnv, .need .generics,
      .cached .ruby, .cached .sapphire, .cached .emerald, .cached .fireRed, .cached .leafGreen,
      reads .pokeEncount, reads .pokeMisc, reads .nhoLottery, reads .nhoGroup,
      .cached .la1, .cached .la2, .cached .la3, .cached .la4, .cached .la5,
      reads .spawner1, reads .spawner2, reads .spawner3, reads .spawner4, reads .spawner5,
      reads .spawnerNames, reads .encounterTableNames]
  -- data/encounter/encounter_area_3.py:3-5, 26
  | .dataEncounterArea3 => [.need .annotated, numpy, .imp .dataUtil, .need .generics]
  -- data/encounter/encounter_area_la.py:3-7, 22
  | .dataEncounterAreaLa => [.need .annotated, numpy, .imp .dataUtil, .imp .enums, .imp .compilation, .need .generics]
  | .gen3 => []
  -- gen3/util.py:3-4
  | .gen3Util => [numpy, .imp .compilation]
  -- gen3/state.py:3-8, 105
  | .gen3State => [numpy, .imp .compilation, .imp .dataPersonal, .imp .data, .imp .util, .imp .gen3Util, .need .generics]
  -- gen3/encounter_area_3.py:3-11, 14
  | .gen3EncounterArea3 => [numpy, .imp .dataEncounterArea3, .imp .dataPersonal, .imp .lcrng, .imp .compilation,
      .imp .enums, .need .generics]
  -- gen3/wild_generator_3.py:3-11, 62
  | .gen3WildGenerator3 => [numpy, .imp .gen3State, .imp .compilation, .imp .enums, .imp .dataEncounterArea3,
      .imp .dataPersonal, .imp .lcrng, .imp .gen3Util, .imp .gen3EncounterArea3, .need .generics]

/-- whether a requirement is met -/
def Req.met (e : Env) : Req → Bool
  | .ext x => e.installed x
  | .extNumba x => !e.useNumba || e.installed x
  | .file f => e.file f
  | .selfDocumenting => decide (8 ≤ e.minor)
  | .annotated => decide (9 ≤ e.minor)
  | .generics => decide (9 ≤ e.minor)

/-- the exception if it is not -/
def Req.err : Req → ImpErr
  | .ext _ => .moduleNotFound
  | .extNumba _ => .moduleNotFound
  | .file _ => .fileNotFound
  | .selfDocumenting => .syntaxError
  | .annotated => .importError
  | .generics => .typeError

/-- `sys.modules` and the cache directory -/
structure St where
  modules : List Mod
  cache : Cache → CacheState

/-- run the statements of a body; `imp` is the import of a module. `busy` are the modules whose bodies have begun and not
ended: what is imported `from` one of them is not defined yet. (Simplification: it might be, if it stands before the import
statement that led here; but as C124 shows no module of the package imports one that is busy.) -/
def runBody (imp : Mod → St → Except ImpErr Unit × St) (e : Env) (busy : List Mod) : List Stmt → St → Except ImpErr Unit × St
  | [], st => (.ok (), st)
  | .need r :: rest, st => if r.met e then runBody imp e busy rest st else (.error r.err, st)
  | .imp m :: rest, st =>
    if m ∈ busy then (.error .importError, st)
    else
      match imp m st with
      | (.ok _, st) => runBody imp e busy rest st
      | (.error x, st) => (.error x, st)
  -- data/encounter/__init__.py:33-49
  | .cached c :: rest, st =>
    match st.cache c with
    | .complete => runBody imp e busy rest st
    | .cut => (.error .unpickling, st)
    | .absent =>
      if e.file c.file then runBody imp e busy rest { st with cache := Function.update st.cache c .complete }
      else (.error .fileNotFound, st)

/-- the body of `m`: it is in `sys.modules` while its body runs, and is taken out if that raises -/
def execModule (imp : List Mod → Mod → St → Except ImpErr Unit × St) (e : Env) (busy : List Mod) (m : Mod) (st : St) :
    Except ImpErr Unit × St :=
  match runBody (imp (m :: busy)) e (m :: busy) (body m) { st with modules := m :: st.modules } with
  | (.ok _, st) => (.ok (), st)
  | (.error x, st) => (.error x, { st with modules := st.modules.filter (· ≠ m) })

/-- `importlib._bootstrap._find_and_load`: nothing to do for a module in `sys.modules`; else the parent is imported,
then (unless that has imported it already) the module. The first argument is fuel for the nesting. -/
def load : Nat → Env → List Mod → Mod → St → Except ImpErr Unit × St
  | 0, _, _, _, st => (.error .outOfFuel, st)
  | n + 1, e, busy, m, st =>
    if m ∈ st.modules then (.ok (), st)
    else
      match parent m with
      | none => execModule (load n e) e busy m st
      | some p =>
        match load n e busy p st with
        | (.error x, st) => (.error x, st)
        | (.ok _, st) => if m ∈ st.modules then (.ok (), st) else execModule (load n e) e busy m st

end Verif.Imports
