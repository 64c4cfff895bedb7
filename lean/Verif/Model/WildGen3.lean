import Verif.Model.State3
/-
Model of numba_pokemon_prngs/gen3/wild_generator_3.py and of `get_info_table_3`.

Simplifications: `seed`, `delay`, `initial_advances` and `max_advances` are Python integers (non-negative), so that sums
do not wrap before they reach `jump` and `range`. Under numba an index out of range is undefined; here it is the error
`indexError`.
-/
namespace Verif.Gen3

/-- The loaded Gen 3 personal files, `data/personal/__init__.py:44-47` (contents are parameters of the model). -/
structure Tables where
  rs : List Personal
  e : List Personal
  fr : List Personal
  lg : List Personal

/-- `data/personal/__init__.py:70-77` `get_info_table_3` -/
def getInfoTable3 (t : Tables) (game : BitVec 32) : List Personal :=
  if Game.has game (Game.ruby ||| Game.sapphire) then t.rs
  else if Game.has game Game.emerald then t.e
  else if Game.has game Game.fireRed then t.fr else t.lg

/-- `wild_generator_3.py:23-28` -/
structure WildGenerator3 where
  method : BitVec 8
  encounter : BitVec 8
  game : BitVec 8
  lead : BitVec 8
  tsv : BitVec 16
  table : List Personal

/-- `wild_generator_3.py:30-47` `__init__` under numba; `np.uint8(...)` truncates the enum members -/
def WildGenerator3.new (t : Tables) (method encounter lead : BitVec 8) (game : BitVec 32) (tid sid : BitVec 16) :
    WildGenerator3 :=
  let game8 : BitVec 8 := game.setWidth 8
  { method := method
    encounter := encounter
    game := game8
    lead := if Game.has (game8.setWidth 32) Game.emerald then lead else Lead.none
    tsv := tid ^^^ sid
    table := getInfoTable3 t (game8.setWidth 32) }

/-- `wild_generator_3.py:49-53` `cute_charm_check` -/
def cuteCharmCheck (lead : BitVec 8) (pid : BitVec 32) (info : Personal) : Bool :=
  if lead = Lead.cuteCharmF then (pid &&& 0xFF) ≥ info.genderRatio.setWidth 32
  else pid &&& 0xFF < info.genderRatio.setWidth 32

/-- `wild_generator_3.py:110, 116`: two draws, low half first -/
def drawPid (seed : BitVec 32) : BitVec 32 × BitVec 32 :=
  let (seed, lo) := u16 seed
  let (seed, hi) := u16 seed
  (seed, lo.setWidth 32 ||| (hi.setWidth 32 <<< 16))

/-- the negation of the loop condition, `wild_generator_3.py:112-114` -/
def acceptPid (lead : BitVec 8) (info : Personal) (cuteCharm : Bool) (species form : BitVec 16) (nature : BitVec 16)
    (pid : BitVec 32) : Bool :=
  !(pid.toNat % 25 != nature.toNat || (cuteCharm && !cuteCharmCheck lead pid info)
    || (species = 201 && !unownCheck pid (form.setWidth 8)))

/-- `wild_generator_3.py:110-116`: draw until accepted, at most `fuel` draws -/
def pidSearch (accept : BitVec 32 → Bool) : (fuel : Nat) → (seed : BitVec 32) → Res (BitVec 32 × BitVec 32)
  | 0, _ => .outOfFuel
  | fuel + 1, seed =>
    let r := drawPid seed
    if accept r.2 then .ok r else pidSearch accept fuel r.1

/-- `wild_generator_3.py:118-131`: the two IV draws of the method and the six values -/
def drawIvs (method : BitVec 8) (seed : BitVec 32) : Vector (BitVec 8) 6 :=
  let seed := if method = Method.method2 then next seed else seed
  let (seed, iv1) := u16 seed
  let seed := if method = Method.method4 then next seed else seed
  let (_, iv2) := u16 seed
  #v[(iv1 &&& 0x1F).setWidth 8, ((iv1 >>> 5) &&& 0x1F).setWidth 8, ((iv1 >>> 10) &&& 0x1F).setWidth 8,
     ((iv2 >>> 5) &&& 0x1F).setWidth 8, ((iv2 >>> 10) &&& 0x1F).setWidth 8, (iv2 &&& 0x1F).setWidth 8]

/-- `wild_generator_3.py:86-94`: slot, species, form, level (with the seed after these draws) and personal entry -/
def drawSlot (g : WildGenerator3) (area : EncounterArea3) (modified : List Slot3) (seed : BitVec 32) :
    Res (BitVec 32 × BitVec 16 × BitVec 16 × Nat × Personal) := do
  let (seed, slot) ← calculateHslotLead area g.encounter g.lead modified seed
  let species := slot.species &&& 0x7FF
  let form := slot.species >>> 11
  let (seed, level) ← calculateLevel slot (g.lead = Lead.pressure) seed
  match g.table[species.toNat]? with
  | none => .err .indexError
  | some info => return (seed, species, form, level, info)

/-- `wild_generator_3.py:95-99`: the value of `cute_charm` for this advance -/
def drawCuteCharm (lead : BitVec 8) (info : Personal) (seed : BitVec 32) : Res (BitVec 32 × Bool) :=
  if lead = Lead.cuteCharmM ∨ lead = Lead.cuteCharmF then
    if 0 < info.genderRatio ∧ info.genderRatio < 254 then return (seed, false)
    else do
      let (seed, r) ← draw 3 seed
      return (seed, r != 0)
  else return (seed, false)

/-- `wild_generator_3.py:105-108`: the nature searched for -/
def drawNature (lead : BitVec 8) (seed : BitVec 32) : Res (BitVec 32 × BitVec 16) :=
  if lead ≤ Lead.synchronizeQuirky then do
    let (seed, r) ← draw 2 seed
    if r = 0 then return (seed, lead.setWidth 16) else draw 25 seed
  else draw 25 seed

/-- `wild_generator_3.py:83`: seed after the condition and its value -/
def rockSmashCheck (rse : Bool) (encounter : BitVec 8) (rate : Nat) (seed : BitVec 32) : Res (BitVec 32 × Bool) :=
  if rse ∧ encounter = Encounter.rockSmash then do
    let (seed, r) ← draw 2880 seed
    return (seed, decide (rate ≤ r.toNat))
  else return (seed, false)

/-- `wild_generator_3.py:80-145`: one advance, from the seed `rng.seed`; `none` is the `continue` of line 84. A level
above 255 has no specified conversion to `uint8` (it needs a slot with min_level > max_level + 1). -/
def generateOne (g : WildGenerator3) (fuel : Nat) (area : EncounterArea3) (modified : List Slot3) (advance : Nat)
    (seed : BitVec 32) : Res (Option State) := do
  let game := g.game.setWidth 32
  let rate := (getEncounterRate area g.encounter).toNat * 16
  let rse := Game.has game (Game.ruby ||| Game.sapphire ||| Game.emerald)
  let (seed, skip) ← rockSmashCheck rse g.encounter rate seed
  if skip then return none
  else
    let (seed, species, form, level, info) ← drawSlot g area modified seed
    let (seed, cuteCharm) ← drawCuteCharm g.lead info seed
    let seed := if isRseSafariZone area game then next seed else seed
    let (seed, nature) ← drawNature g.lead seed
    let (seed, pid) ← pidSearch (acceptPid g.lead info cuteCharm species form nature) fuel seed
    let ivs := drawIvs g.method seed
    if level < 256 then
      let s ← Res.ofExcept (State.new .numba advance pid.toNat species.toNat form.toNat ivs (pid &&& 1).toNat
        (BitVec.ofNat 8 level) (getShiny pid g.tsv) info)
      return some s
    else .err .overflowError

/-- `wild_generator_3.py:79-147`: the loop over `n` more advances. `continue` skips the `rng.next()` of line 147. -/
def generateLoop (g : WildGenerator3) (fuel : Nat) (area : EncounterArea3) (modified : List Slot3) :
    (n advance : Nat) → (seed : BitVec 32) → (states : List State) → Res (List State)
  | 0, _, _, states => .ok states
  | n + 1, advance, seed, states => do
    match ← generateOne g fuel area modified advance seed with
    | none => generateLoop g fuel area modified n (advance + 1) seed states
    | some s => generateLoop g fuel area modified n (advance + 1) (next seed) (states ++ [s])

/-- `wild_generator_3.py:55-149` `generate` under numba, every PID search being cut off after `fuel` draws -/
def generate (g : WildGenerator3) (fuel : Nat) (seed : BitVec 32) (delay initialAdvances maxAdvances : Nat)
    (area : EncounterArea3) : Res (List State) := do
  let modified ← getModifiedSlots area g.encounter g.lead (g.game.setWidth 32) g.table
  match Lcrng.jump Lcrng.pokeRNGParams (initialAdvances + delay) seed with
  | (_, .error e) => .err e
  | (seed, .ok _) => generateLoop g fuel area modified maxAdvances initialAdvances seed []

/-! ### plain Python mode -/

/-- `compilation.py:159-175` `optional_njit` used as a bare decorator on a function of `arity` parameters, then called
with `args` arguments. Under numba the function is compiled and runs. Without numba the decorator returns the inner
function `wrap`, so the name is bound to `wrap`, which takes one parameter and returns it. -/
inductive Bare where
  /-- the decorated function runs -/
  | runs
  /-- the call returns its only argument unchanged -/
  | returnsArgument
  /-- the call raises -/
  | raises (e : PyErr)
  deriving DecidableEq, Repr

/-- see `Bare` -/
def callBare (mode : Mode) (args : Nat) : Bare :=
  match mode with
  | .numba => .runs
  | .numpy => if args = 1 then .returnsArgument else .raises .typeError

/-- `WildGenerator3(...).generate(...)` in either mode: line 65 calls the bare-decorated `get_modified_slots` with five
arguments first (`__init__` does not raise). -/
def run (mode : Mode) (t : Tables) (method encounter lead : BitVec 8) (game : BitVec 32) (tid sid : BitVec 16)
    (fuel : Nat) (seed : BitVec 32) (delay initialAdvances maxAdvances : Nat) (area : EncounterArea3) :
    Res (List State) :=
  match callBare mode 5 with
  | .runs => generate (WildGenerator3.new t method encounter lead game tid sid) fuel seed delay initialAdvances
      maxAdvances area
  | .returnsArgument => .err .other
  | .raises e => .err e

end Verif.Gen3
