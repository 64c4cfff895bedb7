/-
Model of numba_pokemon_prngs/enums (the members used by the modelled code), as bit vectors.
-/
namespace Verif

/-! `enums/game.py:9-38`, all members in order -/
namespace Game
def none : BitVec 32 := 0
def ruby : BitVec 32 := 1 <<< 0
def sapphire : BitVec 32 := 1 <<< 1
def emerald : BitVec 32 := 1 <<< 2
def fireRed : BitVec 32 := 1 <<< 3
def leafGreen : BitVec 32 := 1 <<< 4
def gales : BitVec 32 := 1 <<< 5
def colosseum : BitVec 32 := 1 <<< 6
def diamond : BitVec 32 := 1 <<< 9
def pearl : BitVec 32 := 1 <<< 8
def platinum : BitVec 32 := 1 <<< 9
def heartGold : BitVec 32 := 1 <<< 10
def soulSilver : BitVec 32 := 1 <<< 11
def black : BitVec 32 := 1 <<< 12
def white : BitVec 32 := 1 <<< 13
def black2 : BitVec 32 := 1 <<< 14
def white2 : BitVec 32 := 1 <<< 15
def x : BitVec 32 := 1 <<< 16
def y : BitVec 32 := 1 <<< 17
def omegaRuby : BitVec 32 := 1 <<< 18
def alphaSapphire : BitVec 32 := 1 <<< 19
def sun : BitVec 32 := 1 <<< 20
def moon : BitVec 32 := 1 <<< 21
def ultraSun : BitVec 32 := 1 <<< 22
def ultraMoon : BitVec 32 := 1 <<< 23
def sword : BitVec 32 := 1 <<< 24
def shield : BitVec 32 := 1 <<< 25
def brilliantDiamond : BitVec 32 := 1 <<< 26
def shiningPearl : BitVec 32 := 1 <<< 27
def legendsArceus : BitVec 32 := 1 <<< 28

/-- `game & mask` used as a condition -/
def has (game mask : BitVec 32) : Bool := game &&& mask != 0
end Game

/-! `enums/encounter.py:9-28` -/
namespace Encounter
def grass : BitVec 8 := 0
def rockSmash : BitVec 8 := 3
def surfing : BitVec 8 := 4
def oldRod : BitVec 8 := 6
def goodRod : BitVec 8 := 7
def superRod : BitVec 8 := 8
end Encounter

/-! `enums/lead.py:9-58` -/
namespace Lead
def none : BitVec 8 := 255
def synchronizeQuirky : BitVec 8 := 24
def cuteCharmF : BitVec 8 := 25
def cuteCharmM : BitVec 8 := 26
def magnetPull : BitVec 8 := 27
def static : BitVec 8 := 28
def harvest : BitVec 8 := 29
def flashFire : BitVec 8 := 30
def stormDrain : BitVec 8 := 31
def pressure : BitVec 8 := 32
end Lead

/-! `enums/method.py:9-15` -/
namespace Method
def method1 : BitVec 8 := 1
def method2 : BitVec 8 := 3
def method4 : BitVec 8 := 4
end Method

end Verif
