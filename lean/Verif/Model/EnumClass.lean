import Verif.Model.Enums
/-
Model of Python's `enum.IntEnum` (class creation and lookups) and of the nine classes in numba_pokemon_prngs/enums.
-/
namespace Verif.EnumClass

/-- right-hand side of an assignment in a class body: an integer, or a name assigned earlier in the same body (there still a
plain integer) -/
inductive Rhs where
  | int (n : Nat)
  | same (name : String)
  deriving DecidableEq, Repr

/-- a class body: its assignments in order -/
abbrev Body := List (String × Rhs)

/-- exceptions of class creation and of lookups -/
inductive EnumErr where
  | typeError | nameError | keyError | valueError
  deriving DecidableEq, Repr

/-- a member: `member.name`, `member.value` -/
structure Member where
  name : String
  value : Nat
  deriving DecidableEq, Repr

/-- a finished class: `_member_map_` (every name, aliases included, with its member) and the members in the order in which
`for member in cls` visits them -/
structure Cls where
  map : List (String × Member)
  members : List Member
  deriving DecidableEq, Repr

/-- `dict.get` -/
def get (m : List (String × Member)) (n : String) : Option Member := (m.find? fun p => p.1 == n).map (·.2)

/-- the value of a right-hand side; a name not assigned before raises `NameError` -/
def rhsValue (c : Cls) : Rhs → Except EnumErr Nat
  | .int n => .ok n
  | .same n => match get c.map n with
    | some m => .ok m.value
    | none => .error .nameError

/-- one assignment of the body (`enum._EnumDict.__setitem__`, `EnumMeta.__new__`): a name used twice raises `TypeError`; a value
already taken makes the name an alias of the first member with that value. Simplification: `EnumMeta` evaluates the whole body
before it creates members; as right-hand sides only look at plain integers, doing both at once gives the same class. -/
def assign (c : Cls) (a : String × Rhs) : Except EnumErr Cls :=
  if (get c.map a.1).isSome then .error .typeError
  else
    match rhsValue c a.2 with
    | .error e => .error e
    | .ok v =>
      match c.members.find? fun m => m.value == v with
      | some m => .ok ⟨c.map ++ [(a.1, m)], c.members⟩
      | none => .ok ⟨c.map ++ [(a.1, ⟨a.1, v⟩)], c.members ++ [⟨a.1, v⟩]⟩

/-- the class statement, from a given state on -/
def createFrom : Cls → Body → Except EnumErr Cls
  | c, [] => .ok c
  | c, a :: as => match assign c a with
    | .ok c' => createFrom c' as
    | .error e => .error e

/-- `class E(IntEnum): ...` -/
def create (b : Body) : Except EnumErr Cls := createFrom ⟨[], []⟩ b

/-- `E[name]` (and `E.name`) -/
def Cls.byName (c : Cls) (n : String) : Except EnumErr Member :=
  match get c.map n with
  | some m => .ok m
  | none => .error .keyError

/-- `E(value)` -/
def Cls.byValue (c : Cls) (v : Nat) : Except EnumErr Member :=
  match c.members.find? fun m => m.value == v with
  | some m => .ok m
  | none => .error .valueError

/-- `len(E)` -/
def Cls.len (c : Cls) : Nat := c.members.length

/-- `enums/ds_type.py:9-11` -/
def dsType : Body := [("DS", .int 0), ("DSI", .int 1), ("DS3", .int 2)]

/-- `enums/encounter.py:9-28` -/
def encounter : Body := [
  ("GRASS", .int 0), ("DOUBLE_GRASS", .int 1), ("SPECIAL_GRASS", .int 2), ("ROCK_SMASH", .int 3), ("SURFING", .int 4),
  ("SPECIAL_SURF", .int 5), ("OLD_ROD", .int 6), ("GOOD_ROD", .int 7), ("SUPER_ROD", .int 8),
  ("SPECIAL_SUPER_ROD", .int 9), ("STATIC", .int 10), ("BUG_CATCHING_CONTEST", .int 11), ("HEADBUTT", .int 12),
  ("HEADBUTT_ALT", .int 13), ("HEADBUTT_SPECIAL", .int 14), ("ROAMER", .int 15), ("GIFT", .int 16), ("ENTRALINK", .int 17),
  ("GIFT_EGG", .int 18), ("HIDDEN_GROTTO", .int 19)]

/-- `enums/game.py:9-38` -/
def game : Body := [
  ("NONE", .int 0), ("RUBY", .int (1 <<< 0)), ("SAPPHIRE", .int (1 <<< 1)), ("EMERALD", .int (1 <<< 2)),
  ("FIRE_RED", .int (1 <<< 3)), ("LEAF_GREEN", .int (1 <<< 4)), ("GALES", .int (1 <<< 5)), ("COLOSSEUM", .int (1 <<< 6)),
  ("DIAMOND", .int (1 <<< 9)), ("PEARL", .int (1 <<< 8)), ("PLATINUM", .int (1 <<< 9)), ("HEART_GOLD", .int (1 <<< 10)),
  ("SOUL_SILVER", .int (1 <<< 11)), ("BLACK", .int (1 <<< 12)), ("WHITE", .int (1 <<< 13)), ("BLACK2", .int (1 <<< 14)),
  ("WHITE2", .int (1 <<< 15)), ("X", .int (1 <<< 16)), ("Y", .int (1 <<< 17)), ("OMEGA_RUBY", .int (1 <<< 18)),
  ("ALPHA_SAPPHIRE", .int (1 <<< 19)), ("SUN", .int (1 <<< 20)), ("MOON", .int (1 <<< 21)),
  ("ULTRA_SUN", .int (1 <<< 22)), ("ULTRA_MOON", .int (1 <<< 23)), ("SWORD", .int (1 <<< 24)), ("SHIELD", .int (1 <<< 25)),
  ("BRILLIANT_DIAMOND", .int (1 <<< 26)), ("SHINING_PEARL", .int (1 <<< 27)), ("LEGENDS_ARCEUS", .int (1 <<< 28))]

/-- `enums/la_area.py:9-15` -/
def laArea : Body := [
  ("JUBILIFE_VILLAGE", .int 0), ("OBSIDIAN_FIELDLANDS", .int 1), ("CRIMSON_MIRELANDS", .int 2),
  ("COBALT_COASTLANDS", .int 3), ("CORONET_HIGHLANDS", .int 4), ("ALABASTER_ICELANDS", .int 5), ("ANCIENT_RETREAT", .int 6)]

/-- `enums/la_time.py:9-12` -/
def laTime : Body := [("DAWN", .int 0), ("DAY", .int 1), ("DUSK", .int 2), ("NIGHT", .int 3)]

/-- `enums/la_weather.py:9-17` -/
def laWeather : Body := [
  ("NONE", .int 0), ("SUNNY", .int 1), ("CLOUDY", .int 2), ("RAIN", .int 3), ("SNOW", .int 4), ("DROUGHT", .int 5),
  ("FOG", .int 6), ("RAINSTORM", .int 7), ("SNOWSTORM", .int 8)]

/-- `enums/language.py:8-14` -/
def language : Body := [
  ("ENGLISH", .int 0), ("FRENCH", .int 1), ("GERMAN", .int 2), ("ITALIAN", .int 3), ("JAPANESE", .int 4), ("KOREAN", .int 5),
  ("SPANISH", .int 6)]

/-- `enums/lead.py:9-58` -/
def lead : Body := [
  ("NONE", .int 255),
  ("SYNCHRONIZE_HARDY", .int 0), ("SYNCHRONIZE_LONELY", .int 1), ("SYNCHRONIZE_BRAVE", .int 2),
  ("SYNCHRONIZE_ADAMANT", .int 3), ("SYNCHRONIZE_NAUGHTY", .int 4), ("SYNCHRONIZE_BOLD", .int 5),
  ("SYNCHRONIZE_DOCILE", .int 6), ("SYNCHRONIZE_RELAXED", .int 7), ("SYNCHRONIZE_IMPISH", .int 8),
  ("SYNCHRONIZE_LAX", .int 9), ("SYNCHRONIZE_TIMID", .int 10), ("SYNCHRONIZE_HASTY", .int 11),
  ("SYNCHRONIZE_SERIOUS", .int 12), ("SYNCHRONIZE_JOLLY", .int 13), ("SYNCHRONIZE_NAIVE", .int 14),
  ("SYNCHRONIZE_MODEST", .int 15), ("SYNCHRONIZE_MILD", .int 16), ("SYNCHRONIZE_QUIET", .int 17),
  ("SYNCHRONIZE_BASHFUL", .int 18), ("SYNCHRONIZE_RASH", .int 19), ("SYNCHRONIZE_CALM", .int 20),
  ("SYNCHRONIZE_GENTLE", .int 21), ("SYNCHRONIZE_SASSY", .int 22), ("SYNCHRONIZE_CAREFUL", .int 23),
  ("SYNCHRONIZE_QUIRKY", .int 24),
  ("CUTE_CHARM_F", .int 25), ("CUTE_CHARM_M", .int 26),
  ("MAGNET_PULL", .int 27), ("STATIC", .int 28), ("HARVEST", .int 29), ("FLASH_FIRE", .int 30), ("STORM_DRAIN", .int 31),
  ("PRESSURE", .int 32), ("HUSTLE", .same "PRESSURE"), ("VITAL_SPIRIT", .same "PRESSURE"),
  ("SUCTION_CUPS", .int 33), ("STICKY_HOLD", .same "SUCTION_CUPS"),
  ("COMPOUND_EYES", .int 34), ("SUPER_LUCK", .same "COMPOUND_EYES"),
  ("ARENA_TRAP", .int 35), ("ILLUMINATE", .same "ARENA_TRAP"), ("NO_GUARD", .same "ARENA_TRAP")]

/-- `enums/method.py:9-37` -/
def method : Body := [
  ("NONE", .int 0), ("METHOD_1", .int 1), ("METHOD_1_REVERSE", .int 2), ("METHOD_2", .int 3), ("METHOD_4", .int 4),
  ("XD_COLO", .int 5), ("CHANNEL", .int 6),
  ("EBRED", .int 7), ("EBRED_SPLIT", .int 8), ("EBRED_ALTERNATE", .int 9), ("EBRED_PID", .int 10), ("RSFRLGBRED", .int 11),
  ("RSFRLGBRED_SPLIT", .int 12), ("RSFRLGBRED_ALTERNATE", .int 13), ("RSFRLGBRED_MIXED", .int 14),
  ("CUTE_CHARM_DPPT", .int 15), ("CUTE_CHARM_HGSS", .int 16), ("METHOD_J", .int 17), ("METHOD_K", .int 18),
  ("POKERADAR", .int 19), ("WONDERCARD_IVS", .int 20),
  ("METHOD_5_IVS", .int 21), ("METHOD_5_CGEAR", .int 22), ("METHOD_5", .int 23)]

/-- the classes -/
inductive Enum where
  | dsType | encounter | game | laArea | laTime | laWeather | language | lead | method
  deriving DecidableEq, Repr

/-- `enums/__init__.py:2-10` -/
def Enum.body : Enum → Body
  | .dsType => EnumClass.dsType
  | .encounter => EnumClass.encounter
  | .game => EnumClass.game
  | .laArea => EnumClass.laArea
  | .laTime => EnumClass.laTime
  | .laWeather => EnumClass.laWeather
  | .language => EnumClass.language
  | .lead => EnumClass.lead
  | .method => EnumClass.method

end Verif.EnumClass
