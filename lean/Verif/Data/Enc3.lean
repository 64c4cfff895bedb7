import Verif.Data.Chars
/-
Generated by tools/gen_data3.py from resources/encount/*_wild_encounters.json: the entries of
`["wild_encounter_groups"][0]["encounters"]`.

An entry holds the map, the label and the land, water, rock smash and fishing lists, `none` where the key is
missing. A list is its encounter rate, its number of mons and the mons as a number in hexadecimal notation: eight
digits per mon in the order of the file, two for the minimal level, two for the maximal level and four for the
place of the name of the species in `speciesPool`.
-/
namespace Verif.Data

/-- a list of mons, packed -/
structure Packed where
  rate : Nat
  count : Nat
  mons : Nat

/-- an entry -/
structure Raw where
  map : List Char
  label : List Char
  land : Option Packed
  water : Option Packed
  rock : Option Packed
  fish : Option Packed

/-- the different strings under `"species"`, in the order of their first appearance -/
def speciesPool : List (List Char) := [
  c!"SPECIES_MARILL", c!"SPECIES_MAGIKARP", c!"SPECIES_GOLDEEN", c!"SPECIES_CORPHISH", c!"SPECIES_TENTACOOL",
  c!"SPECIES_WINGULL", c!"SPECIES_PELIPPER", c!"SPECIES_WAILMER", c!"SPECIES_STARYU", c!"SPECIES_SHARPEDO",
  c!"SPECIES_GYARADOS", c!"SPECIES_LUVDISC", c!"SPECIES_CORSOLA", c!"SPECIES_ZUBAT", c!"SPECIES_SOLROCK",
  c!"SPECIES_BARBOACH", c!"SPECIES_GOLBAT", c!"SPECIES_WHISCASH", c!"SPECIES_BAGON", c!"SPECIES_WHISMUR",
  c!"SPECIES_MAKUHITA", c!"SPECIES_ABRA", c!"SPECIES_GEODUDE", c!"SPECIES_ARON", c!"SPECIES_MAWILE",
  c!"SPECIES_NOSEPASS", c!"SPECIES_ZIGZAGOON", c!"SPECIES_WURMPLE", c!"SPECIES_SHROOMISH", c!"SPECIES_SILCOON",
  c!"SPECIES_CASCOON", c!"SPECIES_TAILLOW", c!"SPECIES_SLAKOTH", c!"SPECIES_NUMEL", c!"SPECIES_MACHOP",
  c!"SPECIES_SPOINK", c!"SPECIES_KOFFING", c!"SPECIES_TORKOAL", c!"SPECIES_SLUGMA", c!"SPECIES_GRIMER",
  c!"SPECIES_DUSKULL", c!"SPECIES_SHUPPET", c!"SPECIES_MEDITITE", c!"SPECIES_VULPIX", c!"SPECIES_CHIMECHO",
  c!"SPECIES_HARIYAMA", c!"SPECIES_LAIRON", c!"SPECIES_LOUDRED", c!"SPECIES_MEDICHAM", c!"SPECIES_GRAVELER",
  c!"SPECIES_SPHEAL", c!"SPECIES_SNORUNT", c!"SPECIES_VOLTORB", c!"SPECIES_MAGNEMITE", c!"SPECIES_ELECTRODE",
  c!"SPECIES_MAGNETON", c!"SPECIES_TENTACRUEL", c!"SPECIES_CLAYDOL", c!"SPECIES_DUSCLOPS", c!"SPECIES_ALTARIA",
  c!"SPECIES_POOCHYENA", c!"SPECIES_SEEDOT", c!"SPECIES_RALTS", c!"SPECIES_SURSKIT", c!"SPECIES_ELECTRIKE",
  c!"SPECIES_GULPIN", c!"SPECIES_MINUN", c!"SPECIES_ODDISH", c!"SPECIES_PLUSLE", c!"SPECIES_SANDSHREW",
  c!"SPECIES_TRAPINCH", c!"SPECIES_CACNEA", c!"SPECIES_BALTOY", c!"SPECIES_SPINDA", c!"SPECIES_SKARMORY",
  c!"SPECIES_SWABLU", c!"SPECIES_ZANGOOSE", c!"SPECIES_NUZLEAF", c!"SPECIES_SWELLOW", c!"SPECIES_JIGGLYPUFF",
  c!"SPECIES_NINCADA", c!"SPECIES_SKITTY", c!"SPECIES_ROSELIA", c!"SPECIES_ILLUMISE", c!"SPECIES_VOLBEAT",
  c!"SPECIES_LINOONE", c!"SPECIES_MANECTRIC", c!"SPECIES_KECLEON", c!"SPECIES_CARVANHA", c!"SPECIES_TROPIUS",
  c!"SPECIES_ABSOL", c!"SPECIES_GLOOM", c!"SPECIES_WAILORD", c!"SPECIES_WYNAUT", c!"SPECIES_HORSEA",
  c!"SPECIES_RHYHORN", c!"SPECIES_DODUO", c!"SPECIES_DODRIO", c!"SPECIES_PINSIR", c!"SPECIES_PSYDUCK",
  c!"SPECIES_GOLDUCK", c!"SPECIES_SEAKING", c!"SPECIES_PHANPY", c!"SPECIES_NATU", c!"SPECIES_XATU",
  c!"SPECIES_HERACROSS", c!"SPECIES_GIRAFARIG", c!"SPECIES_WOBBUFFET", c!"SPECIES_PIKACHU", c!"SPECIES_CLAMPERL",
  c!"SPECIES_CHINCHOU", c!"SPECIES_RELICANTH", c!"SPECIES_LUNATONE", c!"SPECIES_SABLEYE", c!"SPECIES_BANETTE",
  c!"SPECIES_LOTAD", c!"SPECIES_SEVIPER", c!"SPECIES_LOMBRE", c!"SPECIES_MIGHTYENA", c!"SPECIES_SUNKERN",
  c!"SPECIES_MAREEP", c!"SPECIES_AIPOM", c!"SPECIES_SPINARAK", c!"SPECIES_HOOTHOOT", c!"SPECIES_SNUBBULL",
  c!"SPECIES_STANTLER", c!"SPECIES_GLIGAR", c!"SPECIES_WOOPER", c!"SPECIES_QUAGSIRE", c!"SPECIES_REMORAID",
  c!"SPECIES_OCTILLERY", c!"SPECIES_TEDDIURSA", c!"SPECIES_LEDYBA", c!"SPECIES_PINECO", c!"SPECIES_HOUNDOUR",
  c!"SPECIES_MILTANK", c!"SPECIES_SHUCKLE", c!"SPECIES_DITTO", c!"SPECIES_SMEARGLE", c!"SPECIES_UNOWN",
  c!"SPECIES_CATERPIE", c!"SPECIES_WEEDLE", c!"SPECIES_METAPOD", c!"SPECIES_KAKUNA", c!"SPECIES_PARAS",
  c!"SPECIES_CLEFAIRY", c!"SPECIES_KRABBY", c!"SPECIES_SHELLDER", c!"SPECIES_DIGLETT", c!"SPECIES_DUGTRIO",
  c!"SPECIES_ONIX", c!"SPECIES_ARBOK", c!"SPECIES_MAROWAK", c!"SPECIES_MACHOKE", c!"SPECIES_PRIMEAPE",
  c!"SPECIES_RATICATE", c!"SPECIES_GROWLITHE", c!"SPECIES_RATTATA", c!"SPECIES_WEEZING", c!"SPECIES_NIDORAN_M",
  c!"SPECIES_EXEGGCUTE", c!"SPECIES_VENONAT", c!"SPECIES_NIDORINO", c!"SPECIES_NIDORINA", c!"SPECIES_PARASECT",
  c!"SPECIES_SCYTHER", c!"SPECIES_CHANSEY", c!"SPECIES_POLIWAG", c!"SPECIES_DRATINI", c!"SPECIES_DRAGONAIR",
  c!"SPECIES_NIDORAN_F", c!"SPECIES_KANGASKHAN", c!"SPECIES_VENOMOTH", c!"SPECIES_TAUROS", c!"SPECIES_POLIWHIRL",
  c!"SPECIES_KADABRA", c!"SPECIES_MANKEY", c!"SPECIES_SEEL", c!"SPECIES_DEWGONG", c!"SPECIES_GASTLY",
  c!"SPECIES_CUBONE", c!"SPECIES_HAUNTER", c!"SPECIES_ELECTABUZZ", c!"SPECIES_PONYTA", c!"SPECIES_FEAROW",
  c!"SPECIES_SPEAROW", c!"SPECIES_RAPIDASH", c!"SPECIES_MAGCARGO", c!"SPECIES_PIDGEOTTO", c!"SPECIES_PIDGEY",
  c!"SPECIES_DROWZEE", c!"SPECIES_HYPNO", c!"SPECIES_SWINUB", c!"SPECIES_DELIBIRD", c!"SPECIES_LAPRAS",
  c!"SPECIES_SEADRA", c!"SPECIES_MURKROW", c!"SPECIES_MEOWTH", c!"SPECIES_PERSIAN", c!"SPECIES_TANGELA",
  c!"SPECIES_DUNSPARCE", c!"SPECIES_HOPPIP", c!"SPECIES_QWILFISH", c!"SPECIES_SENTRET", c!"SPECIES_YANMA",
  c!"SPECIES_LARVITAR", c!"SPECIES_EKANS", c!"SPECIES_SLOWPOKE", c!"SPECIES_SANDSLASH", c!"SPECIES_MUK",
  c!"SPECIES_SLOWBRO", c!"SPECIES_MAGMAR", c!"SPECIES_WEEPINBELL", c!"SPECIES_BELLSPROUT", c!"SPECIES_SNEASEL",
  c!"SPECIES_KINGLER", c!"SPECIES_MISDREAVUS", c!"SPECIES_MANTINE"]

set_option maxRecDepth 10000 in
/-- resources/encount/rs_wild_encounters.json -/
def rsRaw : List Raw := [
  ⟨c!"MAP_PETALBURG_CITY", c!"PetalburgCity_Ruby", none, some ⟨1, 5,
      0x141e00000a1400001e230000050a0000050a0000⟩, none, some ⟨10, 10,
      0x050a0001050a00020a1e00010a1e00020a1e0003191e00031e2300031419000323280003282d0003⟩⟩,
  ⟨c!"MAP_SLATEPORT_CITY", c!"SlateportCity_Ruby", none, some ⟨4, 5,
      0x052300040a1e00050f190005191e0006191e0006⟩, none, some ⟨10, 10,
      0x050a0001050a00040a1e00010a1e00040a1e0007191e00071e2300071419000723280007282d0007⟩⟩,
  ⟨c!"MAP_LILYCOVE_CITY", c!"LilycoveCity_Ruby", none, some ⟨4, 5,
      0x052300040a1e00050f190005191e0006191e0006⟩, none, some ⟨10, 10,
      0x050a0001050a00040a1e00010a1e00040a1e0007191e00071e230007191e000823280007282d0007⟩⟩,
  ⟨c!"MAP_MOSSDEEP_CITY", c!"MossdeepCity_Ruby", none, some ⟨4, 5,
      0x052300040a1e00050f190005191e0006191e0006⟩, none, some ⟨10, 10,
      0x050a0001050a00040a1e00010a1e00040a1e00071e2300091e230007191e000723280007282d0007⟩⟩,
  ⟨c!"MAP_SOOTOPOLIS_CITY", c!"SootopolisCity_Ruby", none, some ⟨1, 5,
      0x052300010a1e00010f190001191e0001191e0001⟩, none, some ⟨10, 10,
      0x050a00010a0f00010a1e00010a1e00010a1e00011e2300011e2300012328000a232d000a052d000a⟩⟩,
  ⟨c!"MAP_EVER_GRANDE_CITY", c!"EverGrandeCity_Ruby", none, some ⟨4, 5,
      0x052300040a1e00050f190005191e0006191e0006⟩, none, some ⟨10, 10,
      0x050a0001050a00040a1e00010a1e000b0a1e00071e23000b1e2300071e23000c23280007282d0007⟩⟩,
  ⟨c!"MAP_METEOR_FALLS_1F_1R", c!"MeteorFalls_1F_1R_Ruby", some ⟨10, 12,
      0x1010000d1111000d1212000d0f0f000d0e0e000d1010000e1212000e0e0e000e1313000d1414000d1313000d1414000d⟩, some ⟨4, 5,
      0x0523000d1e23000d1923000e0f19000e050f000e⟩, none, some ⟨30, 10,
      0x050a0001050a00020a1e00010a1e00020a1e000f191e000f1e23000f1419000f2328000f282d000f⟩⟩,
  ⟨c!"MAP_METEOR_FALLS_1F_2R", c!"MeteorFalls_1F_2R_Ruby", some ⟨10, 12,
      0x2121001023230010212100102323000e2121000e2525000e232300102727000e26260010282800102626001028280010⟩, some ⟨4, 5,
      0x1e2300101e2300101923000e0f19000e050f000e⟩, none, some ⟨30, 10,
      0x050a0001050a00020a1e00010a1e00020a1e000f191e000f1e23000f1e23001123280011282d0011⟩⟩,
  ⟨c!"MAP_METEOR_FALLS_B1F_1R", c!"MeteorFalls_B1F_1R_Ruby", some ⟨10, 12,
      0x2121001023230010212100102323000e2121000e2525000e232300102727000e26260010282800102626001028280010⟩, some ⟨4, 5,
      0x1e2300101e2300101923000e0f19000e050f000e⟩, none, some ⟨30, 10,
      0x050a0001050a00020a1e00010a1e00020a1e000f191e000f1e23000f1e23001123280011282d0011⟩⟩,
  ⟨c!"MAP_METEOR_FALLS_B1F_2R", c!"MeteorFalls_B1F_2R_Ruby", some ⟨10, 12,
      0x21210010232300101e1e00122323000e232300122525000e191900122727000e26260010282800102626001028280010⟩, some ⟨4, 5,
      0x1e2300101e2300101923000e0f19000e050f000e⟩, none, some ⟨30, 10,
      0x050a0001050a00020a1e00010a1e00020a1e000f191e000f1e23000f1e23001123280011282d0011⟩⟩,
  ⟨c!"MAP_RUSTURF_TUNNEL", c!"RusturfTunnel_Ruby", some ⟨10, 12,
      0x060600130707001306060013060600130707001307070013050500130808001305050013080800130505001308080013⟩, none, none, none⟩,
  ⟨c!"MAP_GRANITE_CAVE_1F", c!"GraniteCave_1F_Ruby", some ⟨10, 12,
      0x0707000d08080014070700140808000d09090014080800150a0a00140606001407070016080800160606001609090016⟩, none, none, none⟩,
  ⟨c!"MAP_GRANITE_CAVE_B1F", c!"GraniteCave_B1F_Ruby", some ⟨10, 12,
      0x0909000d0a0a0017090900170b0b00170a0a000d090900150a0a00140b0b00140a0a00180a0a0018090900180b0b0018⟩, none, none, none⟩,
  ⟨c!"MAP_GRANITE_CAVE_B2F", c!"GraniteCave_B2F_Ruby", some ⟨10, 12,
      0x0a0a000d0b0b00170a0a00170b0b000d0c0c00170a0a00150a0a00180b0b00180c0c00180a0a00180c0c00180a0a0018⟩, none, some ⟨20, 5,
      0x0a0f00160a140019050a00160f1400160f140016⟩, none⟩,
  ⟨c!"MAP_GRANITE_CAVE_STEVENS_ROOM", c!"GraniteCave_StevensRoom_Ruby", some ⟨10, 12,
      0x0707000d08080014070700140808000d09090014080800150a0a00140606001407070017080800170707001708080017⟩, none, none, none⟩,
  ⟨c!"MAP_PETALBURG_WOODS", c!"PetalburgWoods_Ruby", some ⟨20, 12,
      0x0505001a0505001b0505001c0606001a0505001d0505001e0606001b0606001c0505001f050500200606001f06060020⟩, none, none, none⟩,
  ⟨c!"MAP_JAGGED_PASS", c!"JaggedPass_Ruby", some ⟨20, 12,
      0x131300211313002113130022121200211212002312120022131300231414002214140021141400231414002114140023⟩, none, none, none⟩,
  ⟨c!"MAP_FIERY_PATH", c!"FieryPath_Ruby", some ⟨10, 12,
      0x0f0f00210f0f0024101000210f0f00220f0f00250f0f002610100024101000220e0e0025101000250e0e00270e0e0027⟩, none, none, none⟩,
  ⟨c!"MAP_MT_PYRE_1F", c!"MtPyre_1F_Ruby", some ⟨10, 12,
      0x1b1b00281c1c00281a1a0028191900281d1d00281818002817170028161600281d1d0028181800281d1d002818180028⟩, none, none, none⟩,
  ⟨c!"MAP_MT_PYRE_2F", c!"MtPyre_2F_Ruby", some ⟨10, 12,
      0x1b1b00281c1c00281a1a0028191900281d1d00281818002817170028161600281d1d0028181800281d1d002818180028⟩, none, none, none⟩,
  ⟨c!"MAP_MT_PYRE_3F", c!"MtPyre_3F_Ruby", some ⟨10, 12,
      0x1b1b00281c1c00281a1a0028191900281d1d00281818002817170028161600281d1d0028181800281d1d002818180028⟩, none, none, none⟩,
  ⟨c!"MAP_MT_PYRE_4F", c!"MtPyre_4F_Ruby", some ⟨10, 12,
      0x1b1b00281c1c00281a1a0028191900281d1d00281818002817170028161600281b1b00291b1b0029191900291d1d0029⟩, none, none, none⟩,
  ⟨c!"MAP_MT_PYRE_5F", c!"MtPyre_5F_Ruby", some ⟨10, 12,
      0x1b1b00281c1c00281a1a0028191900281d1d00281818002817170028161600281b1b00291b1b0029191900291d1d0029⟩, none, none, none⟩,
  ⟨c!"MAP_MT_PYRE_6F", c!"MtPyre_6F_Ruby", some ⟨10, 12,
      0x1b1b00281c1c00281a1a0028191900281d1d00281818002817170028161600281b1b00291b1b0029191900291d1d0029⟩, none, none, none⟩,
  ⟨c!"MAP_MT_PYRE_EXTERIOR", c!"MtPyre_Exterior_Ruby", some ⟨10, 12,
      0x1b1b00281b1b002a1c1c00281d1d002a1d1d00281b1b002b1d1d002b1919002b1b1b00051b1b00051a1a00051c1c0005⟩, none, none, none⟩,
  ⟨c!"MAP_MT_PYRE_SUMMIT", c!"MtPyre_Summit_Ruby", some ⟨10, 12,
      0x1c1c00281d1d00281b1b00281a1a00281e1e002819190028181800281c1c00291a1a00291e1e00291c1c002c1c1c002c⟩, none, none, none⟩,
  ⟨c!"MAP_SEAFLOOR_CAVERN_ENTRANCE", c!"SeafloorCavern_Entrance_Ruby", none, some ⟨4, 5,
      0x052300040523000d1e23000d1e2300101e230010⟩, none, some ⟨10, 10,
      0x050a0001050a00040a1e00010a1e00040a1e0007191e00071e2300071419000723280007282d0007⟩⟩,
  ⟨c!"MAP_SEAFLOOR_CAVERN_ROOM1", c!"SeafloorCavern_Room1_Ruby", some ⟨4, 12,
      0x1e1e000d1f1f000d2020000d2121000d1c1c000d1d1d000d2222000d2323000d22220010232300102121001024240010⟩, none, none, none⟩,
  ⟨c!"MAP_SEAFLOOR_CAVERN_ROOM2", c!"SeafloorCavern_Room2_Ruby", some ⟨4, 12,
      0x1e1e000d1f1f000d2020000d2121000d1c1c000d1d1d000d2222000d2323000d22220010232300102121001024240010⟩, none, none, none⟩,
  ⟨c!"MAP_SEAFLOOR_CAVERN_ROOM3", c!"SeafloorCavern_Room3_Ruby", some ⟨4, 12,
      0x1e1e000d1f1f000d2020000d2121000d1c1c000d1d1d000d2222000d2323000d22220010232300102121001024240010⟩, none, none, none⟩,
  ⟨c!"MAP_SEAFLOOR_CAVERN_ROOM4", c!"SeafloorCavern_Room4_Ruby", some ⟨4, 12,
      0x1e1e000d1f1f000d2020000d2121000d1c1c000d1d1d000d2222000d2323000d22220010232300102121001024240010⟩, none, none, none⟩,
  ⟨c!"MAP_SEAFLOOR_CAVERN_ROOM5", c!"SeafloorCavern_Room5_Ruby", some ⟨4, 12,
      0x1e1e000d1f1f000d2020000d2121000d1c1c000d1d1d000d2222000d2323000d22220010232300102121001024240010⟩, none, none, none⟩,
  ⟨c!"MAP_SEAFLOOR_CAVERN_ROOM6", c!"SeafloorCavern_Room6_Ruby", some ⟨4, 12,
      0x1e1e000d1f1f000d2020000d2121000d1c1c000d1d1d000d2222000d2323000d22220010232300102121001024240010⟩, some ⟨4, 5,
      0x052300040523000d1e23000d1e2300101e230010⟩, none, some ⟨10, 10,
      0x050a0001050a00040a1e00010a1e00040a1e0007191e00071e2300071419000723280007282d0007⟩⟩,
  ⟨c!"MAP_SEAFLOOR_CAVERN_ROOM7", c!"SeafloorCavern_Room7_Ruby", some ⟨4, 12,
      0x1e1e000d1f1f000d2020000d2121000d1c1c000d1d1d000d2222000d2323000d22220010232300102121001024240010⟩, some ⟨4, 5,
      0x052300040523000d1e23000d1e2300101e230010⟩, none, some ⟨10, 10,
      0x050a0001050a00040a1e00010a1e00040a1e0007191e00071e2300071419000723280007282d0007⟩⟩,
  ⟨c!"MAP_SEAFLOOR_CAVERN_ROOM8", c!"SeafloorCavern_Room8_Ruby", some ⟨4, 12,
      0x1e1e000d1f1f000d2020000d2121000d1c1c000d1d1d000d2222000d2323000d22220010232300102121001024240010⟩, none, none, none⟩,
  ⟨c!"MAP_CAVE_OF_ORIGIN_ENTRANCE", c!"CaveOfOrigin_Entrance_Ruby", some ⟨4, 12,
      0x1e1e000d1f1f000d2020000d2121000d1c1c000d1d1d000d2222000d2323000d22220010232300102121001024240010⟩, none, none, none⟩,
  ⟨c!"MAP_CAVE_OF_ORIGIN_1F", c!"CaveOfOrigin_1F_Ruby", some ⟨4, 12,
      0x1e1e000d1f1f000d2020000d1e1e001820200018222200182121000d2222000d22220010232300102121001024240010⟩, none, none, none⟩,
  ⟨c!"MAP_CAVE_OF_ORIGIN_B1F", c!"CaveOfOrigin_B1F_Ruby", some ⟨4, 12,
      0x1e1e000d1f1f000d2020000d1e1e001820200018222200182121000d2222000d22220010232300102121001024240010⟩, none, none, none⟩,
  ⟨c!"MAP_CAVE_OF_ORIGIN_B2F", c!"CaveOfOrigin_B2F_Ruby", some ⟨4, 12,
      0x1e1e000d1f1f000d2020000d1e1e001820200018222200182121000d2222000d22220010232300102121001024240010⟩, none, none, none⟩,
  ⟨c!"MAP_CAVE_OF_ORIGIN_B3F", c!"CaveOfOrigin_B3F_Ruby", some ⟨4, 12,
      0x1e1e000d1f1f000d2020000d1e1e001820200018222200182121000d2222000d22220010232300102121001024240010⟩, none, none, none⟩,
  ⟨c!"MAP_VICTORY_ROAD_1F", c!"VictoryRoad_1F_Ruby", some ⟨10, 12,
      0x282800102828002d2828002e2828002f2424000d24240014262600102626002d24240017242400132424001724240013⟩, none, none, none⟩,
  ⟨c!"MAP_VICTORY_ROAD_B1F", c!"VictoryRoad_B1F_Ruby", some ⟨10, 12,
      0x282800102828002d2828002e28280030262600102626002d2a2a00102a2a002d2a2a002e2626002a2a2a002e2626002a⟩, none, some ⟨20, 5,
      0x1e2800311e280016232800312328003123280031⟩, none⟩,
  ⟨c!"MAP_VICTORY_ROAD_B2F", c!"VictoryRoad_B2F_Ruby", some ⟨10, 12,
      0x28280010282800182828002e282800302a2a00102a2a00182c2c00102c2c00182a2a002e2a2a00302c2c002e2c2c0030⟩, some ⟨4, 5,
      0x1e230010191e0010232800102328001023280010⟩, none, some ⟨30, 10,
      0x050a0001050a00020a1e00010a1e00020a1e000f191e000f1e23000f1e23001123280011282d0011⟩⟩,
  ⟨c!"MAP_SHOAL_CAVE_LOW_TIDE_ENTRANCE_ROOM", c!"ShoalCave_LowTideEntranceRoom_Ruby", some ⟨10, 12,
      0x1a1a000d1a1a00321c1c000d1c1c00321e1e000d1e1e00322020000d2020003220200010202000322020001020200032⟩, some ⟨4, 5,
      0x052300040523000d191e0032191e003219230032⟩, none, some ⟨10, 10,
      0x050a0001050a00040a1e00010a1e00040a1e0007191e00071e2300071419000723280007282d0007⟩⟩,
  ⟨c!"MAP_SHOAL_CAVE_LOW_TIDE_INNER_ROOM", c!"ShoalCave_LowTideInnerRoom_Ruby", some ⟨10, 12,
      0x1a1a000d1a1a00321c1c000d1c1c00321e1e000d1e1e00322020000d2020003220200010202000322020001020200032⟩, some ⟨4, 5,
      0x052300040523000d191e0032191e003219230032⟩, none, some ⟨10, 10,
      0x050a0001050a00040a1e00010a1e00040a1e0007191e00071e2300071419000723280007282d0007⟩⟩,
  ⟨c!"MAP_SHOAL_CAVE_LOW_TIDE_STAIRS_ROOM", c!"ShoalCave_LowTideStairsRoom_Ruby", some ⟨10, 12,
      0x1a1a000d1a1a00321c1c000d1c1c00321e1e000d1e1e00322020000d2020003220200010202000322020001020200032⟩, none, none, none⟩,
  ⟨c!"MAP_SHOAL_CAVE_LOW_TIDE_LOWER_ROOM", c!"ShoalCave_LowTideLowerRoom_Ruby", some ⟨10, 12,
      0x1a1a000d1a1a00321c1c000d1c1c00321e1e000d1e1e00322020000d2020003220200010202000322020001020200032⟩, none, none, none⟩,
  ⟨c!"MAP_SHOAL_CAVE_LOW_TIDE_ICE_ROOM", c!"ShoalCave_LowTideIceRoom_Ruby", some ⟨10, 12,
      0x1a1a000d1a1a00321c1c000d1c1c00321e1e000d1e1e00321a1a0033202000321e1e00101c1c0033202000101e1e0033⟩, none, none, none⟩,
  ⟨c!"MAP_NEW_MAUVILLE_ENTRANCE", c!"NewMauville_Entrance_Ruby", some ⟨10, 12,
      0x1818003418180035191900341919003517170034171700351a1a00341a1a003516160034161600351616003416160035⟩, none, none, none⟩,
  ⟨c!"MAP_NEW_MAUVILLE_INSIDE", c!"NewMauville_Inside_Ruby", some ⟨10, 12,
      0x1818003418180035191900341919003517170034171700351a1a00341a1a003516160034161600351a1a00361a1a0037⟩, none, none, none⟩,
  ⟨c!"MAP_ABANDONED_SHIP_ROOMS_B1F", c!"AbandonedShip_Rooms_B1F_Ruby", none, some ⟨4, 5,
      0x052300040523000405230004052300041e230038⟩, none, some ⟨20, 10,
      0x050a0001050a00040a1e00010a1e00040a1e0004191e00041e2300041e230038191e003814190038⟩⟩,
  ⟨c!"MAP_ABANDONED_SHIP_HIDDEN_FLOOR_CORRIDORS", c!"AbandonedShip_HiddenFloorCorridors_Ruby", none, some ⟨4, 5,
      0x052300040523000405230004052300041e230038⟩, none, some ⟨20, 10,
      0x050a0001050a00040a1e00010a1e00040a1e0004191e00041e2300041e230038191e003814190038⟩⟩,
  ⟨c!"MAP_SKY_PILLAR_1F", c!"SkyPillar_1F_Ruby", some ⟨10, 12,
      0x30300018303000103232001032320018303000393030003a3232003a313100392f2f0039323200392f2f003932320039⟩, none, none, none⟩,
  ⟨c!"MAP_SKY_PILLAR_3F", c!"SkyPillar_3F_Ruby", some ⟨10, 12,
      0x33330018333300103535001035350018333300393333003a3535003a3434003932320039353500393232003935350039⟩, none, none, none⟩,
  ⟨c!"MAP_SKY_PILLAR_5F", c!"SkyPillar_5F_Ruby", some ⟨10, 12,
      0x36360018363600103838001038380018363600393636003a3838003a37370039383800393939003b3636003b3c3c003b⟩, none, none, none⟩,
  ⟨c!"MAP_ROUTE101", c!"Route101_Ruby", some ⟨20, 12,
      0x0202001b0202001a0202001b0303001b0303001a0303001a0303001b0303001a0202003c0202003c0303003c0303003c⟩, none, none, none⟩,
  ⟨c!"MAP_ROUTE102", c!"Route102_Ruby", some ⟨20, 12,
      0x0303001a0303001b0404001a0404001b0303003d0404003d0303003c0303003c0404003c0404003e0404003c0303003f⟩, some ⟨4, 5,
      0x141e00000a1400001e230000050a0000141e003f⟩, none, some ⟨30, 10,
      0x050a0001050a00020a1e00010a1e00020a1e0003191e00031e2300031419000323280003282d0003⟩⟩,
  ⟨c!"MAP_ROUTE103", c!"Route103_Ruby", some ⟨20, 12,
      0x0202001a0303001a0303001a0404001a0202003c0303003c0303003c0404003c03030005030300050202000504040005⟩, some ⟨4, 5,
      0x052300040a1e00050f190005191e0006191e0006⟩, none, some ⟨30, 10,
      0x050a0001050a00040a1e00010a1e00040a1e00071e2300091e230007191e000723280007282d0007⟩⟩,
  ⟨c!"MAP_ROUTE104", c!"Route104_Ruby", some ⟨20, 12,
      0x0404001a0404001b0505001a0505001b0404001a0505001a0404001f0505001f04040005040400050303000505050005⟩, some ⟨4, 5,
      0x0a1e00050f1900050f190005191e0006191e0006⟩, none, some ⟨30, 10,
      0x050a0001050a00010a1e00010a1e00010a1e0001191e00011e2300011419000123280001282d0001⟩⟩,
  ⟨c!"MAP_ROUTE105", c!"Route105_Ruby", none, some ⟨4, 5,
      0x052300040a1e00050f190005191e0006191e0006⟩, none, some ⟨30, 10,
      0x050a0001050a00040a1e00010a1e00040a1e0007191e00071e2300071419000723280007282d0007⟩⟩,
  ⟨c!"MAP_ROUTE106", c!"Route106_Ruby", none, some ⟨4, 5,
      0x052300040a1e00050f190005191e0006191e0006⟩, none, some ⟨30, 10,
      0x050a0001050a00040a1e00010a1e00040a1e0007191e00071e2300071419000723280007282d0007⟩⟩,
  ⟨c!"MAP_ROUTE107", c!"Route107_Ruby", none, some ⟨4, 5,
      0x052300040a1e00050f190005191e0006191e0006⟩, none, some ⟨30, 10,
      0x050a0001050a00040a1e00010a1e00040a1e0007191e00071e2300071419000723280007282d0007⟩⟩,
  ⟨c!"MAP_ROUTE108", c!"Route108_Ruby", none, some ⟨4, 5,
      0x052300040a1e00050f190005191e0006191e0006⟩, none, some ⟨30, 10,
      0x050a0001050a00040a1e00010a1e00040a1e0007191e00071e2300071419000723280007282d0007⟩⟩,
  ⟨c!"MAP_ROUTE109", c!"Route109_Ruby", none, some ⟨4, 5,
      0x052300040a1e00050f190005191e0006191e0006⟩, none, some ⟨30, 10,
      0x050a0001050a00040a1e00010a1e00040a1e0007191e00071e2300071419000723280007282d0007⟩⟩,
  ⟨c!"MAP_ROUTE110", c!"Route110_Ruby", some ⟨20, 12,
      0x0c0c001a0c0c00400c0c00410d0d00400d0d00420d0d00430d0d00420d0d00410c0c00050c0c00050c0c00440d0d0044⟩, some ⟨4, 5,
      0x052300040a1e00050f190005191e0006191e0006⟩, none, some ⟨30, 10,
      0x050a0001050a00040a1e00010a1e00040a1e0007191e00071e2300071419000723280007282d0007⟩⟩,
  ⟨c!"MAP_ROUTE111", c!"Route111_Ruby", some ⟨10, 12,
      0x141400451414004615150045151500461313004715150047131300451313004614140048141400481616004816160048⟩, some ⟨4, 5,
      0x141e00000a1400001e230000050a0000141e003f⟩, some ⟨20, 5,
      0x0a0f0016050a00160f1400160f1400160f140016⟩, some ⟨30, 10,
      0x050a0001050a00020a1e00010a1e00020a1e000f191e000f1e23000f1419000f2328000f282d000f⟩⟩,
  ⟨c!"MAP_ROUTE112", c!"Route112_Ruby", some ⟨20, 12,
      0x0f0f00210f0f00210f0f00220e0e00210e0e00210e0e0022101000211010002210100021101000211010002110100021⟩, none, none, none⟩,
  ⟨c!"MAP_ROUTE113", c!"Route113_Ruby", some ⟨20, 12,
      0x0f0f00490f0f00490f0f00450e0e00490e0e00490e0e00451010004910100045101000491010004a101000491010004a⟩, none, none, none⟩,
  ⟨c!"MAP_ROUTE114", c!"Route114_Ruby", some ⟨20, 12,
      0x1010004b1010003d1111004b0f0f004b0f0f003d1010004c1010004d1212004d1111004c0f0f004c1111004c0f0f003f⟩, some ⟨4, 5,
      0x141e00000a1400001e230000050a0000141e003f⟩, some ⟨20, 5,
      0x0a0f0016050a00160f1400160f1400160f140016⟩, some ⟨30, 10,
      0x050a0001050a00020a1e00010a1e00020a1e000f191e000f1e23000f1419000f2328000f282d000f⟩⟩,
  ⟨c!"MAP_ROUTE115", c!"Route115_Ruby", some ⟨20, 12,
      0x1717004b1717001f1919004b1818001f1919001f1919004e1818004f1919004f18180005181800051a1a000519190005⟩, some ⟨4, 5,
      0x052300040a1e00050f190005191e0006191e0006⟩, none, some ⟨30, 10,
      0x050a0001050a00040a1e00010a1e00040a1e0007191e00071e2300071419000723280007282d0007⟩⟩,
  ⟨c!"MAP_ROUTE116", c!"Route116_Ruby", some ⟨20, 12,
      0x0606001a060600130606005007070013070700500606001f0707001f0808001f0707001a0808001a0707005108080051⟩, none, none, none⟩,
  ⟨c!"MAP_ROUTE117", c!"Route117_Ruby", some ⟨20, 12,
      0x0d0d001a0d0d00520e0e001a0e0e00520d0d00000d0d00430d0d00530d0d00530e0e00530e0e00530d0d00540d0d003f⟩, some ⟨4, 5,
      0x141e00000a1400001e230000050a0000141e003f⟩, none, some ⟨30, 10,
      0x050a0001050a00020a1e00010a1e00020a1e0003191e00031e2300031419000323280003282d0003⟩⟩,
  ⟨c!"MAP_ROUTE118", c!"Route118_Ruby", some ⟨20, 12,
      0x1818001a181800401a1a001a1a1a00401a1a00551a1a005619190005191900051a1a00051a1a00051b1b000519190057⟩, some ⟨4, 5,
      0x052300040a1e00050f190005191e0006191e0006⟩, none, some ⟨30, 10,
      0x050a0001050a00040a1e00010a1e00040a1e00581e2300091e2300581419005823280058282d0058⟩⟩,
  ⟨c!"MAP_ROUTE119", c!"Route119_Ruby", some ⟨15, 12,
      0x1919001a191900551b1b001a191900431b1b00551a1a00431b1b004318180043191900591a1a00591b1b005919190057⟩, some ⟨4, 5,
      0x052300040a1e00050f190005191e0006191e0006⟩, none, some ⟨30, 10,
      0x050a0001050a00040a1e00010a1e00040a1e0058191e00581e2300581419005823280058282d0058⟩⟩,
  ⟨c!"MAP_ROUTE120", c!"Route120_Ruby", some ⟨20, 12,
      0x1919001a191900551b1b005519190043191900001a1a00431b1b00431b1b00001919005a1b1b005a191900571919003f⟩, some ⟨4, 5,
      0x141e00000a1400001e230000050a0000141e003f⟩, none, some ⟨30, 10,
      0x050a0001050a00020a1e00010a1e00020a1e000f191e000f1e23000f1419000f2328000f282d000f⟩⟩,
  ⟨c!"MAP_ROUTE121", c!"Route121_Ruby", some ⟨20, 12,
      0x1a1a001a1a1a00281a1a00551c1c00281c1c00551a1a00431c1c00431c1c005b1a1a00051b1b00051c1c000519190057⟩, some ⟨4, 5,
      0x052300040a1e00050f190005191e0006191e0006⟩, none, some ⟨30, 10,
      0x050a0001050a00040a1e00010a1e00040a1e0007191e00071e2300071419000723280007282d0007⟩⟩,
  ⟨c!"MAP_ROUTE122", c!"Route122_Ruby", none, some ⟨4, 5,
      0x052300040a1e00050f190005191e0006191e0006⟩, none, some ⟨30, 10,
      0x050a0001050a00040a1e00010a1e00040a1e00071e2300091e230007191e000723280007282d0007⟩⟩,
  ⟨c!"MAP_ROUTE123", c!"Route123_Ruby", some ⟨20, 12,
      0x1a1a001a1a1a00281a1a00551c1c00281c1c00551a1a00431c1c00431c1c005b1a1a00051b1b00051c1c000519190057⟩, some ⟨4, 5,
      0x052300040a1e00050f190005191e0006191e0006⟩, none, some ⟨30, 10,
      0x050a0001050a00040a1e00010a1e00040a1e0007191e00071e2300071419000723280007282d0007⟩⟩,
  ⟨c!"MAP_ROUTE124", c!"Route124_Ruby", none, some ⟨4, 5,
      0x052300040a1e00050f190005191e0006191e0006⟩, none, some ⟨30, 10,
      0x050a0001050a00040a1e00010a1e00040a1e00071e2300091e230007191e000723280007282d0007⟩⟩,
  ⟨c!"MAP_ROUTE125", c!"Route125_Ruby", none, some ⟨4, 5,
      0x052300040a1e00050f190005191e0006191e0006⟩, none, some ⟨30, 10,
      0x050a0001050a00040a1e00010a1e00040a1e00071e2300091e230007191e000723280007282d0007⟩⟩,
  ⟨c!"MAP_ROUTE126", c!"Route126_Ruby", none, some ⟨4, 5,
      0x052300040a1e00050f190005191e0006191e0006⟩, none, some ⟨30, 10,
      0x050a0001050a00040a1e00010a1e00040a1e00071e2300091e230007191e000723280007282d0007⟩⟩,
  ⟨c!"MAP_ROUTE127", c!"Route127_Ruby", none, some ⟨4, 5,
      0x052300040a1e00050f190005191e0006191e0006⟩, none, some ⟨30, 10,
      0x050a0001050a00040a1e00010a1e00040a1e00071e2300091e230007191e000723280007282d0007⟩⟩,
  ⟨c!"MAP_ROUTE128", c!"Route128_Ruby", none, some ⟨4, 5,
      0x052300040a1e00050f190005191e0006191e0006⟩, none, some ⟨30, 10,
      0x050a0001050a00040a1e00010a1e000b0a1e00071e23000b1e2300071e23000c23280007282d0007⟩⟩,
  ⟨c!"MAP_ROUTE129", c!"Route129_Ruby", none, some ⟨4, 5,
      0x052300040a1e00050f190005191e00062328005c⟩, none, some ⟨30, 10,
      0x050a0001050a00040a1e00010a1e00040a1e00071e2300091e230007191e000723280007282d0007⟩⟩,
  ⟨c!"MAP_ROUTE130", c!"Route130_Ruby", some ⟨20, 12,
      0x1e1e005d2323005d1919005d2828005d1414005d2d2d005d0f0f005d3232005d0a0a005d0505005d0a0a005d0505005d⟩, some ⟨4, 5,
      0x052300040a1e00050f190005191e0006191e0006⟩, none, some ⟨30, 10,
      0x050a0001050a00040a1e00010a1e00040a1e00071e2300091e230007191e000723280007282d0007⟩⟩,
  ⟨c!"MAP_ROUTE131", c!"Route131_Ruby", none, some ⟨4, 5,
      0x052300040a1e00050f190005191e0006191e0006⟩, none, some ⟨30, 10,
      0x050a0001050a00040a1e00010a1e00040a1e00071e2300091e230007191e000723280007282d0007⟩⟩,
  ⟨c!"MAP_ROUTE132", c!"Route132_Ruby", none, some ⟨4, 5,
      0x052300040a1e00050f190005191e0006191e0006⟩, none, some ⟨30, 10,
      0x050a0001050a00040a1e00010a1e00040a1e00071e2300091e230007191e005e23280007282d0007⟩⟩,
  ⟨c!"MAP_ROUTE133", c!"Route133_Ruby", none, some ⟨4, 5,
      0x052300040a1e00050f190005191e0006191e0006⟩, none, some ⟨30, 10,
      0x050a0001050a00040a1e00010a1e00040a1e00071e2300091e230007191e005e23280007282d0007⟩⟩,
  ⟨c!"MAP_ROUTE134", c!"Route134_Ruby", none, some ⟨4, 5,
      0x052300040a1e00050f190005191e0006191e0006⟩, none, some ⟨30, 10,
      0x050a0001050a00040a1e00010a1e00040a1e00071e2300091e230007191e005e23280007282d0007⟩⟩,
  ⟨c!"MAP_SAFARI_ZONE_NORTHWEST", c!"SafariZone_Northwest_Ruby", some ⟨25, 12,
      0x1b1b005f1b1b00431d1d005f1d1d00431b1b00601d1d005b1f1f005b1d1d00601d1d00611b1b00621f1f00611d1d0062⟩, some ⟨9, 5,
      0x141e0063141e00631e2300631e23006419280064⟩, none, some ⟨35, 10,
      0x050a0001050a00020a1e00010a1900020a1e0002191e00021e2300021e23006523280065191e0065⟩⟩,
  ⟨c!"MAP_SAFARI_ZONE_NORTHEAST", c!"SafariZone_Northeast_Ruby", some ⟨25, 12,
      0x1b1b00661b1b00431d1d00661d1d00431b1b00671d1d005b1f1f005b1d1d00671d1d00681b1b00691f1f00681d1d0069⟩, none, some ⟨25, 5,
      0x0a0f0016050a00160f14001614190016191e0016⟩, none⟩,
  ⟨c!"MAP_SAFARI_ZONE_SOUTHWEST", c!"SafariZone_Southwest_Ruby", some ⟨25, 12,
      0x191900431b1b00431919006a1b1b006a19190067191900601919005b1b1b006b1919006c1b1b006b1b1b006c1d1d006b⟩, some ⟨9, 5,
      0x141e0063141e00631e2300631e2300631e230063⟩, none, some ⟨35, 10,
      0x050a0001050a00020a1e00010a1900020a1e0002191e00021e2300021e23006523280065191e0065⟩⟩,
  ⟨c!"MAP_SAFARI_ZONE_SOUTHEAST", c!"SafariZone_Southeast_Ruby", some ⟨25, 12,
      0x191900431b1b00431919006a1b1b006a19190067191900601919005b1b1b006b1919006c1b1b006b1b1b006c1d1d006b⟩, none, none, none⟩,
  ⟨c!"MAP_DEWFORD_TOWN", c!"DewfordTown_Ruby", none, some ⟨4, 5,
      0x052300040a1e00050f190005191e0006191e0006⟩, none, some ⟨10, 10,
      0x050a0001050a00040a1e00010a1e00040a1e0007191e00071e2300071419000723280007282d0007⟩⟩,
  ⟨c!"MAP_PACIFIDLOG_TOWN", c!"PacifidlogTown_Ruby", none, some ⟨4, 5,
      0x052300040a1e00050f190005191e0006191e0006⟩, none, some ⟨10, 10,
      0x050a0001050a00040a1e00010a1e00040a1e00071e2300091e230007191e000723280007282d0007⟩⟩,
  ⟨c!"MAP_UNDERWATER1", c!"Underwater1_Ruby", none, some ⟨4, 5,
      0x141e006d141e006e1e23006d1e23006f1e23006f⟩, none, none⟩,
  ⟨c!"MAP_UNDERWATER2", c!"Underwater2_Ruby", none, some ⟨4, 5,
      0x141e006d141e006e1e23006d1e23006f1e23006f⟩, none, none⟩,
  ⟨c!"MAP_PETALBURG_CITY", c!"PetalburgCity_Sapphire", none, some ⟨1, 5,
      0x141e00000a1400001e230000050a0000050a0000⟩, none, some ⟨10, 10,
      0x050a0001050a00020a1e00010a1e00020a1e0003191e00031e2300031419000323280003282d0003⟩⟩,
  ⟨c!"MAP_SLATEPORT_CITY", c!"SlateportCity_Sapphire", none, some ⟨4, 5,
      0x052300040a1e00050f190005191e0006191e0006⟩, none, some ⟨10, 10,
      0x050a0001050a00040a1e00010a1e00040a1e0007191e00071e2300071419000723280007282d0007⟩⟩,
  ⟨c!"MAP_LILYCOVE_CITY", c!"LilycoveCity_Sapphire", none, some ⟨4, 5,
      0x052300040a1e00050f190005191e0006191e0006⟩, none, some ⟨10, 10,
      0x050a0001050a00040a1e00010a1e00040a1e0007191e00071e230007191e000823280007282d0007⟩⟩,
  ⟨c!"MAP_MOSSDEEP_CITY", c!"MossdeepCity_Sapphire", none, some ⟨4, 5,
      0x052300040a1e00050f190005191e0006191e0006⟩, none, some ⟨10, 10,
      0x050a0001050a00040a1e00010a1e00040a1e00071e2300091e230007191e000723280007282d0007⟩⟩,
  ⟨c!"MAP_SOOTOPOLIS_CITY", c!"SootopolisCity_Sapphire", none, some ⟨1, 5,
      0x052300010a1e00010f190001191e0001191e0001⟩, none, some ⟨10, 10,
      0x050a0001050a00040a1e00010a1e00010a1e00011e2300011e2300012328000a232d000a052d000a⟩⟩,
  ⟨c!"MAP_EVER_GRANDE_CITY", c!"EverGrandeCity_Sapphire", none, some ⟨4, 5,
      0x052300040a1e00050f190005191e0006191e0006⟩, none, some ⟨10, 10,
      0x050a0001050a00040a1e00010a1e000b0a1e00071e23000b1e2300071e23000c23280007282d0007⟩⟩,
  ⟨c!"MAP_METEOR_FALLS_1F_1R", c!"MeteorFalls_1F_1R_Sapphire", some ⟨10, 12,
      0x1010000d1111000d1212000d0f0f000d0e0e000d10100070121200700e0e00701313000d1414000d1313000d1414000d⟩, some ⟨4, 5,
      0x0523000d1e23000d192300700f190070050f0070⟩, none, some ⟨30, 10,
      0x050a0001050a00020a1e00010a1e00020a1e000f191e000f1e23000f1419000f2328000f282d000f⟩⟩,
  ⟨c!"MAP_METEOR_FALLS_1F_2R", c!"MeteorFalls_1F_2R_Sapphire", some ⟨10, 12,
      0x212100102323001021210010232300702121007025250070232300102727007026260010282800102626001028280010⟩, some ⟨4, 5,
      0x1e2300101e230010192300700f190070050f0070⟩, none, some ⟨30, 10,
      0x050a0001050a00020a1e00010a1e00020a1e000f191e000f1e23000f1e23001123280011282d0011⟩⟩,
  ⟨c!"MAP_METEOR_FALLS_B1F_1R", c!"MeteorFalls_B1F_1R_Sapphire", some ⟨10, 12,
      0x212100102323001021210010232300702121007025250070232300102727007026260010282800102626001028280010⟩, some ⟨4, 5,
      0x1e2300101e230010192300700f190070050f0070⟩, none, some ⟨30, 10,
      0x050a0001050a00020a1e00010a1e00020a1e000f191e000f1e23000f1e23001123280011282d0011⟩⟩,
  ⟨c!"MAP_METEOR_FALLS_B1F_2R", c!"MeteorFalls_B1F_2R_Sapphire", some ⟨10, 12,
      0x21210010232300101e1e0012232300702323001225250070191900122727007026260010282800102626001028280010⟩, some ⟨4, 5,
      0x1e2300101e230010192300700f190070050f0070⟩, none, some ⟨30, 10,
      0x050a0001050a00020a1e00010a1e00020a1e000f191e000f1e23000f1e23001123280011282d0011⟩⟩,
  ⟨c!"MAP_RUSTURF_TUNNEL", c!"RusturfTunnel_Sapphire", some ⟨10, 12,
      0x060600130707001306060013060600130707001307070013050500130808001305050013080800130505001308080013⟩, none, none, none⟩,
  ⟨c!"MAP_GRANITE_CAVE_1F", c!"GraniteCave_1F_Sapphire", some ⟨10, 12,
      0x0707000d08080014070700140808000d09090014080800150a0a00140606001407070016080800160606001609090016⟩, none, none, none⟩,
  ⟨c!"MAP_GRANITE_CAVE_B1F", c!"GraniteCave_B1F_Sapphire", some ⟨10, 12,
      0x0909000d0a0a0017090900170b0b00170a0a000d090900150a0a00140b0b00140a0a00710a0a0071090900710b0b0071⟩, none, none, none⟩,
  ⟨c!"MAP_GRANITE_CAVE_B2F", c!"GraniteCave_B2F_Sapphire", some ⟨10, 12,
      0x0a0a000d0b0b00170a0a00170b0b000d0c0c00170a0a00150a0a00710b0b00710c0c00710a0a00710c0c00710a0a0071⟩, none, some ⟨20, 5,
      0x0a0f00160a140019050a00160f1400160f140016⟩, none⟩,
  ⟨c!"MAP_GRANITE_CAVE_STEVENS_ROOM", c!"GraniteCave_StevensRoom_Sapphire", some ⟨10, 12,
      0x0707000d08080014070700140808000d09090014080800150a0a00140606001407070017080800170707001708080017⟩, none, none, none⟩,
  ⟨c!"MAP_PETALBURG_WOODS", c!"PetalburgWoods_Sapphire", some ⟨20, 12,
      0x0505001a0505001b0505001c0606001a0505001d0505001e0606001b0606001c0505001f050500200606001f06060020⟩, none, none, none⟩,
  ⟨c!"MAP_JAGGED_PASS", c!"JaggedPass_Sapphire", some ⟨20, 12,
      0x151500211515002115150022141400211414002314140022151500231616002216160021161600231616002116160023⟩, none, none, none⟩,
  ⟨c!"MAP_FIERY_PATH", c!"FieryPath_Sapphire", some ⟨10, 12,
      0x0f0f00210f0f0027101000210f0f00220f0f00250f0f002610100027101000220e0e0025101000250e0e00240e0e0024⟩, none, none, none⟩,
  ⟨c!"MAP_MT_PYRE_1F", c!"MtPyre_1F_Sapphire", some ⟨10, 12,
      0x1b1b00291c1c00291a1a0029191900291d1d00291818002917170029161600291d1d0029181800291d1d002918180029⟩, none, none, none⟩,
  ⟨c!"MAP_MT_PYRE_2F", c!"MtPyre_2F_Sapphire", some ⟨10, 12,
      0x1b1b00291c1c00291a1a0029191900291d1d00291818002917170029161600291d1d0029181800291d1d002918180029⟩, none, none, none⟩,
  ⟨c!"MAP_MT_PYRE_3F", c!"MtPyre_3F_Sapphire", some ⟨10, 12,
      0x1b1b00291c1c00291a1a0029191900291d1d00291818002917170029161600291d1d0029181800291d1d002918180029⟩, none, none, none⟩,
  ⟨c!"MAP_MT_PYRE_4F", c!"MtPyre_4F_Sapphire", some ⟨10, 12,
      0x1b1b00291c1c00291a1a0029191900291d1d00291818002917170029161600291b1b00281b1b0028191900281d1d0028⟩, none, none, none⟩,
  ⟨c!"MAP_MT_PYRE_5F", c!"MtPyre_5F_Sapphire", some ⟨10, 12,
      0x1b1b00291c1c00291a1a0029191900291d1d00291818002917170029161600291b1b00281b1b0028191900281d1d0028⟩, none, none, none⟩,
  ⟨c!"MAP_MT_PYRE_6F", c!"MtPyre_6F_Sapphire", some ⟨10, 12,
      0x1b1b00291c1c00291a1a0029191900291d1d00291818002917170029161600291b1b00281b1b0028191900281d1d0028⟩, none, none, none⟩,
  ⟨c!"MAP_MT_PYRE_EXTERIOR", c!"MtPyre_Exterior_Sapphire", some ⟨10, 12,
      0x1b1b00291b1b002a1c1c00291d1d002a1d1d00291b1b002b1d1d002b1919002b1b1b00051b1b00051a1a00051c1c0005⟩, none, none, none⟩,
  ⟨c!"MAP_MT_PYRE_SUMMIT", c!"MtPyre_Summit_Sapphire", some ⟨10, 12,
      0x1c1c00291d1d00291b1b00291a1a00291e1e002919190029181800291c1c00281a1a00281e1e00281c1c002c1c1c002c⟩, none, none, none⟩,
  ⟨c!"MAP_SEAFLOOR_CAVERN_ENTRANCE", c!"SeafloorCavern_Entrance_Sapphire", none, some ⟨4, 5,
      0x052300040523000d1e23000d1e2300101e230010⟩, none, some ⟨10, 10,
      0x050a0001050a00040a1e00010a1e00040a1e0007191e00071e2300071419000723280007282d0007⟩⟩,
  ⟨c!"MAP_SEAFLOOR_CAVERN_ROOM1", c!"SeafloorCavern_Room1_Sapphire", some ⟨4, 12,
      0x1e1e000d1f1f000d2020000d2121000d1c1c000d1d1d000d2222000d2323000d22220010232300102121001024240010⟩, none, none, none⟩,
  ⟨c!"MAP_SEAFLOOR_CAVERN_ROOM2", c!"SeafloorCavern_Room2_Sapphire", some ⟨4, 12,
      0x1e1e000d1f1f000d2020000d2121000d1c1c000d1d1d000d2222000d2323000d22220010232300102121001024240010⟩, none, none, none⟩,
  ⟨c!"MAP_SEAFLOOR_CAVERN_ROOM3", c!"SeafloorCavern_Room3_Sapphire", some ⟨4, 12,
      0x1e1e000d1f1f000d2020000d2121000d1c1c000d1d1d000d2222000d2323000d22220010232300102121001024240010⟩, none, none, none⟩,
  ⟨c!"MAP_SEAFLOOR_CAVERN_ROOM4", c!"SeafloorCavern_Room4_Sapphire", some ⟨4, 12,
      0x1e1e000d1f1f000d2020000d2121000d1c1c000d1d1d000d2222000d2323000d22220010232300102121001024240010⟩, none, none, none⟩,
  ⟨c!"MAP_SEAFLOOR_CAVERN_ROOM5", c!"SeafloorCavern_Room5_Sapphire", some ⟨4, 12,
      0x1e1e000d1f1f000d2020000d2121000d1c1c000d1d1d000d2222000d2323000d22220010232300102121001024240010⟩, none, none, none⟩,
  ⟨c!"MAP_SEAFLOOR_CAVERN_ROOM6", c!"SeafloorCavern_Room6_Sapphire", some ⟨4, 12,
      0x1e1e000d1f1f000d2020000d2121000d1c1c000d1d1d000d2222000d2323000d22220010232300102121001024240010⟩, some ⟨4, 5,
      0x052300040523000d1e23000d1e2300101e230010⟩, none, some ⟨10, 10,
      0x050a0001050a00040a1e00010a1e00040a1e0007191e00071e2300071419000723280007282d0007⟩⟩,
  ⟨c!"MAP_SEAFLOOR_CAVERN_ROOM7", c!"SeafloorCavern_Room7_Sapphire", some ⟨4, 12,
      0x1e1e000d1f1f000d2020000d2121000d1c1c000d1d1d000d2222000d2323000d22220010232300102121001024240010⟩, some ⟨4, 5,
      0x052300040523000d1e23000d1e2300101e230010⟩, none, some ⟨10, 10,
      0x050a0001050a00040a1e00010a1e00040a1e0007191e00071e2300071419000723280007282d0007⟩⟩,
  ⟨c!"MAP_SEAFLOOR_CAVERN_ROOM8", c!"SeafloorCavern_Room8_Sapphire", some ⟨4, 12,
      0x1e1e000d1f1f000d2020000d2121000d1c1c000d1d1d000d2222000d2323000d22220010232300102121001024240010⟩, none, none, none⟩,
  ⟨c!"MAP_CAVE_OF_ORIGIN_ENTRANCE", c!"CaveOfOrigin_Entrance_Sapphire", some ⟨4, 12,
      0x1e1e000d1f1f000d2020000d2121000d1c1c000d1d1d000d2222000d2323000d22220010232300102121001024240010⟩, none, none, none⟩,
  ⟨c!"MAP_CAVE_OF_ORIGIN_1F", c!"CaveOfOrigin_1F_Sapphire", some ⟨4, 12,
      0x1e1e000d1f1f000d2020000d1e1e007120200071222200712121000d2222000d22220010232300102121001024240010⟩, none, none, none⟩,
  ⟨c!"MAP_CAVE_OF_ORIGIN_B1F", c!"CaveOfOrigin_B1F_Sapphire", some ⟨4, 12,
      0x1e1e000d1f1f000d2020000d1e1e007120200071222200712121000d2222000d22220010232300102121001024240010⟩, none, none, none⟩,
  ⟨c!"MAP_CAVE_OF_ORIGIN_B2F", c!"CaveOfOrigin_B2F_Sapphire", some ⟨4, 12,
      0x1e1e000d1f1f000d2020000d1e1e007120200071222200712121000d2222000d22220010232300102121001024240010⟩, none, none, none⟩,
  ⟨c!"MAP_CAVE_OF_ORIGIN_B3F", c!"CaveOfOrigin_B3F_Sapphire", some ⟨4, 12,
      0x1e1e000d1f1f000d2020000d1e1e007120200071222200712121000d2222000d22220010232300102121001024240010⟩, none, none, none⟩,
  ⟨c!"MAP_VICTORY_ROAD_1F", c!"VictoryRoad_1F_Sapphire", some ⟨10, 12,
      0x282800102828002d2828002e2828002f2424000d24240014262600102626002d24240017242400132424001724240013⟩, none, none, none⟩,
  ⟨c!"MAP_VICTORY_ROAD_B1F", c!"VictoryRoad_B1F_Sapphire", some ⟨10, 12,
      0x282800102828002d2828002e28280030262600102626002d2a2a00102a2a002d2a2a002e2626002a2a2a002e2626002a⟩, none, some ⟨20, 5,
      0x1e2800311e280016232800312328003123280031⟩, none⟩,
  ⟨c!"MAP_VICTORY_ROAD_B2F", c!"VictoryRoad_B2F_Sapphire", some ⟨10, 12,
      0x28280010282800712828002e282800302a2a00102a2a00712c2c00102c2c00712a2a002e2a2a00302c2c002e2c2c0030⟩, some ⟨4, 5,
      0x1e230010191e0010232800102328001023280010⟩, none, some ⟨30, 10,
      0x050a0001050a00020a1e00010a1e00020a1e000f191e000f1e23000f1e23001123280011282d0011⟩⟩,
  ⟨c!"MAP_SHOAL_CAVE_LOW_TIDE_ENTRANCE_ROOM", c!"ShoalCave_LowTideEntranceRoom_Sapphire", some ⟨10, 12,
      0x1a1a000d1a1a00321c1c000d1c1c00321e1e000d1e1e00322020000d2020003220200010202000322020001020200032⟩, some ⟨4, 5,
      0x052300040523000d191e0032191e003219230032⟩, none, some ⟨10, 10,
      0x050a0001050a00040a1e00010a1e00040a1e0007191e00071e2300071419000723280007282d0007⟩⟩,
  ⟨c!"MAP_SHOAL_CAVE_LOW_TIDE_INNER_ROOM", c!"ShoalCave_LowTideInnerRoom_Sapphire", some ⟨10, 12,
      0x1a1a000d1a1a00321c1c000d1c1c00321e1e000d1e1e00322020000d2020003220200010202000322020001020200032⟩, some ⟨4, 5,
      0x052300040523000d191e0032191e003219230032⟩, none, some ⟨10, 10,
      0x050a0001050a00040a1e00010a1e00040a1e0007191e00071e2300071419000723280007282d0007⟩⟩,
  ⟨c!"MAP_SHOAL_CAVE_LOW_TIDE_STAIRS_ROOM", c!"ShoalCave_LowTideStairsRoom_Sapphire", some ⟨10, 12,
      0x1a1a000d1a1a00321c1c000d1c1c00321e1e000d1e1e00322020000d2020003220200010202000322020001020200032⟩, none, none, none⟩,
  ⟨c!"MAP_SHOAL_CAVE_LOW_TIDE_LOWER_ROOM", c!"ShoalCave_LowTideLowerRoom_Sapphire", some ⟨10, 12,
      0x1a1a000d1a1a00321c1c000d1c1c00321e1e000d1e1e00322020000d2020003220200010202000322020001020200032⟩, none, none, none⟩,
  ⟨c!"MAP_SHOAL_CAVE_LOW_TIDE_ICE_ROOM", c!"ShoalCave_LowTideIceRoom_Sapphire", some ⟨10, 12,
      0x1a1a000d1a1a00321c1c000d1c1c00321e1e000d1e1e00321a1a0033202000321e1e00101c1c0033202000101e1e0033⟩, none, none, none⟩,
  ⟨c!"MAP_NEW_MAUVILLE_ENTRANCE", c!"NewMauville_Entrance_Sapphire", some ⟨10, 12,
      0x1818003418180035191900341919003517170034171700351a1a00341a1a003516160034161600351616003416160035⟩, none, none, none⟩,
  ⟨c!"MAP_NEW_MAUVILLE_INSIDE", c!"NewMauville_Inside_Sapphire", some ⟨10, 12,
      0x1818003418180035191900341919003517170034171700351a1a00341a1a003516160034161600351a1a00361a1a0037⟩, none, none, none⟩,
  ⟨c!"MAP_ABANDONED_SHIP_ROOMS_B1F", c!"AbandonedShip_Rooms_B1F_Sapphire", none, some ⟨4, 5,
      0x052300040523000405230004052300041e230038⟩, none, some ⟨20, 10,
      0x050a0001050a00040a1e00010a1e00040a1e0004191e00041e2300041e230038191e003814190038⟩⟩,
  ⟨c!"MAP_ABANDONED_SHIP_HIDDEN_FLOOR_CORRIDORS", c!"AbandonedShip_HiddenFloorCorridors_Sapphire", none, some ⟨4, 5,
      0x052300040523000405230004052300041e230038⟩, none, some ⟨20, 10,
      0x050a0001050a00040a1e00010a1e00040a1e0004191e00041e2300041e230038191e003814190038⟩⟩,
  ⟨c!"MAP_SKY_PILLAR_1F", c!"SkyPillar_1F_Sapphire", some ⟨10, 12,
      0x30300071303000103232001032320071303000393030007232320072313100392f2f0039323200392f2f003932320039⟩, none, none, none⟩,
  ⟨c!"MAP_SKY_PILLAR_3F", c!"SkyPillar_3F_Sapphire", some ⟨10, 12,
      0x333300713333001035350010353500713333003933330072353500723434003932320039353500393232003935350039⟩, none, none, none⟩,
  ⟨c!"MAP_SKY_PILLAR_5F", c!"SkyPillar_5F_Sapphire", some ⟨10, 12,
      0x3636007136360010383800103838007136360039363600723838007237370039383800393939003b3636003b3c3c003b⟩, none, none, none⟩,
  ⟨c!"MAP_ROUTE101", c!"Route101_Sapphire", some ⟨20, 12,
      0x0202001b0202001a0202001b0303001b0303001a0303001a0303001b0303001a0202003c0202003c0303003c0303003c⟩, none, none, none⟩,
  ⟨c!"MAP_ROUTE102", c!"Route102_Sapphire", some ⟨20, 12,
      0x0303001a0303001b0404001a0404001b03030073040400730303003c0303003c0404003c0404003e0404003c0303003f⟩, some ⟨4, 5,
      0x141e00000a1400001e230000050a0000141e003f⟩, none, some ⟨30, 10,
      0x050a0001050a00020a1e00010a1e00020a1e0003191e00031e2300031419000323280003282d0003⟩⟩,
  ⟨c!"MAP_ROUTE103", c!"Route103_Sapphire", some ⟨20, 12,
      0x0202001a0303001a0303001a0404001a0202003c0303003c0303003c0404003c03030005030300050202000504040005⟩, some ⟨4, 5,
      0x052300040a1e00050f190005191e0006191e0006⟩, none, some ⟨30, 10,
      0x050a0001050a00040a1e00010a1e00040a1e00071e2300091e230007191e000723280007282d0007⟩⟩,
  ⟨c!"MAP_ROUTE104", c!"Route104_Sapphire", some ⟨20, 12,
      0x0404001a0404001b0505001a0505001b0404001a0505001a0404001f0505001f04040005040400050303000505050005⟩, some ⟨4, 5,
      0x0a1e00050f1900050f190005191e0006191e0006⟩, none, some ⟨30, 10,
      0x050a0001050a00010a1e00010a1e00010a1e0001191e00011e2300011419000123280001282d0001⟩⟩,
  ⟨c!"MAP_ROUTE105", c!"Route105_Sapphire", none, some ⟨4, 5,
      0x052300040a1e00050f190005191e0006191e0006⟩, none, some ⟨30, 10,
      0x050a0001050a00040a1e00010a1e00040a1e0007191e00071e2300071419000723280007282d0007⟩⟩,
  ⟨c!"MAP_ROUTE106", c!"Route106_Sapphire", none, some ⟨4, 5,
      0x052300040a1e00050f190005191e0006191e0006⟩, none, some ⟨30, 10,
      0x050a0001050a00040a1e00010a1e00040a1e0007191e00071e2300071419000723280007282d0007⟩⟩,
  ⟨c!"MAP_ROUTE107", c!"Route107_Sapphire", none, some ⟨4, 5,
      0x052300040a1e00050f190005191e0006191e0006⟩, none, some ⟨30, 10,
      0x050a0001050a00040a1e00010a1e00040a1e0007191e00071e2300071419000723280007282d0007⟩⟩,
  ⟨c!"MAP_ROUTE108", c!"Route108_Sapphire", none, some ⟨4, 5,
      0x052300040a1e00050f190005191e0006191e0006⟩, none, some ⟨30, 10,
      0x050a0001050a00040a1e00010a1e00040a1e0007191e00071e2300071419000723280007282d0007⟩⟩,
  ⟨c!"MAP_ROUTE109", c!"Route109_Sapphire", none, some ⟨4, 5,
      0x052300040a1e00050f190005191e0006191e0006⟩, none, some ⟨30, 10,
      0x050a0001050a00040a1e00010a1e00040a1e0007191e00071e2300071419000723280007282d0007⟩⟩,
  ⟨c!"MAP_ROUTE110", c!"Route110_Sapphire", some ⟨20, 12,
      0x0c0c001a0c0c00400c0c00410d0d00400d0d00440d0d00430d0d00440d0d00410c0c00050c0c00050c0c00420d0d0042⟩, some ⟨4, 5,
      0x052300040a1e00050f190005191e0006191e0006⟩, none, some ⟨30, 10,
      0x050a0001050a00040a1e00010a1e00040a1e0007191e00071e2300071419000723280007282d0007⟩⟩,
  ⟨c!"MAP_ROUTE111", c!"Route111_Sapphire", some ⟨10, 12,
      0x141400451414004615150045151500461313004715150047131300451313004614140048141400481616004816160048⟩, some ⟨4, 5,
      0x141e00000a1400001e230000050a0000141e003f⟩, some ⟨20, 5,
      0x0a0f0016050a00160f1400160f1400160f140016⟩, some ⟨30, 10,
      0x050a0001050a00020a1e00010a1e00020a1e000f191e000f1e23000f1419000f2328000f282d000f⟩⟩,
  ⟨c!"MAP_ROUTE112", c!"Route112_Sapphire", some ⟨20, 12,
      0x0f0f00210f0f00210f0f00220e0e00210e0e00210e0e0022101000211010002210100021101000211010002110100021⟩, none, none, none⟩,
  ⟨c!"MAP_ROUTE113", c!"Route113_Sapphire", some ⟨20, 12,
      0x0f0f00490f0f00490f0f00450e0e00490e0e00490e0e00451010004910100045101000491010004a101000491010004a⟩, none, none, none⟩,
  ⟨c!"MAP_ROUTE114", c!"Route114_Sapphire", some ⟨20, 12,
      0x1010004b101000731111004b0f0f004b0f0f0073101000741010007512120075111100740f0f0074111100740f0f003f⟩, some ⟨4, 5,
      0x141e00000a1400001e230000050a0000141e003f⟩, some ⟨20, 5,
      0x0a0f0016050a00160f1400160f1400160f140016⟩, some ⟨30, 10,
      0x050a0001050a00020a1e00010a1e00020a1e000f191e000f1e23000f1419000f2328000f282d000f⟩⟩,
  ⟨c!"MAP_ROUTE115", c!"Route115_Sapphire", some ⟨20, 12,
      0x1717004b1717001f1919004b1818001f1919001f1919004e1818004f1919004f18180005181800051a1a000519190005⟩, some ⟨4, 5,
      0x052300040a1e00050f190005191e0006191e0006⟩, none, some ⟨30, 10,
      0x050a0001050a00040a1e00010a1e00040a1e0007191e00071e2300071419000723280007282d0007⟩⟩,
  ⟨c!"MAP_ROUTE116", c!"Route116_Sapphire", some ⟨20, 12,
      0x0606001a060600130606005007070013070700500606001f0707001f0808001f0707001a0808001a0707005108080051⟩, none, none, none⟩,
  ⟨c!"MAP_ROUTE117", c!"Route117_Sapphire", some ⟨20, 12,
      0x0d0d001a0d0d00520e0e001a0e0e00520d0d00000d0d00430d0d00540d0d00540e0e00540e0e00540d0d00530d0d003f⟩, some ⟨4, 5,
      0x141e00000a1400001e230000050a0000141e003f⟩, none, some ⟨30, 10,
      0x050a0001050a00020a1e00010a1e00020a1e0003191e00031e2300031419000323280003282d0003⟩⟩,
  ⟨c!"MAP_ROUTE118", c!"Route118_Sapphire", some ⟨20, 12,
      0x1818001a181800401a1a001a1a1a00401a1a00551a1a005619190005191900051a1a00051a1a00051b1b000519190057⟩, some ⟨4, 5,
      0x052300040a1e00050f190005191e0006191e0006⟩, none, some ⟨30, 10,
      0x050a0001050a00040a1e00010a1e00040a1e00581e2300091e2300581419005823280058282d0058⟩⟩,
  ⟨c!"MAP_ROUTE119", c!"Route119_Sapphire", some ⟨15, 12,
      0x1919001a191900551b1b001a191900431b1b00551a1a00431b1b004318180043191900591a1a00591b1b005919190057⟩, some ⟨4, 5,
      0x052300040a1e00050f190005191e0006191e0006⟩, none, some ⟨30, 10,
      0x050a0001050a00040a1e00010a1e00040a1e0058191e00581e2300581419005823280058282d0058⟩⟩,
  ⟨c!"MAP_ROUTE120", c!"Route120_Sapphire", some ⟨20, 12,
      0x1919001a191900551b1b005519190043191900001a1a00431b1b00431b1b00001919005a1b1b005a191900571919003f⟩, some ⟨4, 5,
      0x141e00000a1400001e230000050a0000141e003f⟩, none, some ⟨30, 10,
      0x050a0001050a00020a1e00010a1e00020a1e000f191e000f1e23000f1419000f2328000f282d000f⟩⟩,
  ⟨c!"MAP_ROUTE121", c!"Route121_Sapphire", some ⟨20, 12,
      0x1a1a001a1a1a00291a1a00551c1c00291c1c00551a1a00431c1c00431c1c005b1a1a00051b1b00051c1c000519190057⟩, some ⟨4, 5,
      0x052300040a1e00050f190005191e0006191e0006⟩, none, some ⟨30, 10,
      0x050a0001050a00040a1e00010a1e00040a1e0007191e00071e2300071419000723280007282d0007⟩⟩,
  ⟨c!"MAP_ROUTE122", c!"Route122_Sapphire", none, some ⟨4, 5,
      0x052300040a1e00050f190005191e0006191e0006⟩, none, some ⟨30, 10,
      0x050a0001050a00040a1e00010a1e00040a1e00071e2300091e230007191e000723280007282d0007⟩⟩,
  ⟨c!"MAP_ROUTE123", c!"Route123_Sapphire", some ⟨20, 12,
      0x1a1a001a1a1a00291a1a00551c1c00291c1c00551a1a00431c1c00431c1c005b1a1a00051b1b00051c1c000519190057⟩, some ⟨4, 5,
      0x052300040a1e00050f190005191e0006191e0006⟩, none, some ⟨30, 10,
      0x050a0001050a00040a1e00010a1e00040a1e0007191e00071e2300071419000723280007282d0007⟩⟩,
  ⟨c!"MAP_ROUTE124", c!"Route124_Sapphire", none, some ⟨4, 5,
      0x052300040a1e00050f190005191e0006191e0006⟩, none, some ⟨30, 10,
      0x050a0001050a00040a1e00010a1e00040a1e00071e2300091e230007191e000723280007282d0007⟩⟩,
  ⟨c!"MAP_ROUTE125", c!"Route125_Sapphire", none, some ⟨4, 5,
      0x052300040a1e00050f190005191e0006191e0006⟩, none, some ⟨30, 10,
      0x050a0001050a00040a1e00010a1e00040a1e00071e2300091e230007191e000723280007282d0007⟩⟩,
  ⟨c!"MAP_ROUTE126", c!"Route126_Sapphire", none, some ⟨4, 5,
      0x052300040a1e00050f190005191e0006191e0006⟩, none, some ⟨30, 10,
      0x050a0001050a00040a1e00010a1e00040a1e00071e2300091e230007191e000723280007282d0007⟩⟩,
  ⟨c!"MAP_ROUTE127", c!"Route127_Sapphire", none, some ⟨4, 5,
      0x052300040a1e00050f190005191e0006191e0006⟩, none, some ⟨30, 10,
      0x050a0001050a00040a1e00010a1e00040a1e00071e2300091e230007191e000723280007282d0007⟩⟩,
  ⟨c!"MAP_ROUTE128", c!"Route128_Sapphire", none, some ⟨4, 5,
      0x052300040a1e00050f190005191e0006191e0006⟩, none, some ⟨30, 10,
      0x050a0001050a00040a1e00010a1e000b0a1e00071e23000b1e2300071e23000c23280007282d0007⟩⟩,
  ⟨c!"MAP_ROUTE129", c!"Route129_Sapphire", none, some ⟨4, 5,
      0x052300040a1e00050f190005191e0006191e005c⟩, none, some ⟨30, 10,
      0x050a0001050a00040a1e00010a1e00040a1e00071e2300091e230007191e000723280007282d0007⟩⟩,
  ⟨c!"MAP_ROUTE130", c!"Route130_Sapphire", some ⟨20, 12,
      0x1e1e005d2323005d1919005d2828005d1414005d2d2d005d0f0f005d3232005d0a0a005d0505005d0a0a005d0505005d⟩, some ⟨4, 5,
      0x052300040a1e00050f190005191e0006191e0006⟩, none, some ⟨30, 10,
      0x050a0001050a00040a1e00010a1e00040a1e00071e2300091e230007191e000723280007282d0007⟩⟩,
  ⟨c!"MAP_ROUTE131", c!"Route131_Sapphire", none, some ⟨4, 5,
      0x052300040a1e00050f190005191e0006191e0006⟩, none, some ⟨30, 10,
      0x050a0001050a00040a1e00010a1e00040a1e00071e2300091e230007191e000723280007282d0007⟩⟩,
  ⟨c!"MAP_ROUTE132", c!"Route132_Sapphire", none, some ⟨4, 5,
      0x052300040a1e00050f190005191e0006191e0006⟩, none, some ⟨30, 10,
      0x050a0001050a00040a1e00010a1e00040a1e00071e2300091e230007191e005e23280007282d0007⟩⟩,
  ⟨c!"MAP_ROUTE133", c!"Route133_Sapphire", none, some ⟨4, 5,
      0x052300040a1e00050f190005191e0006191e0006⟩, none, some ⟨30, 10,
      0x050a0001050a00040a1e00010a1e00040a1e00071e2300091e230007191e005e23280007282d0007⟩⟩,
  ⟨c!"MAP_ROUTE134", c!"Route134_Sapphire", none, some ⟨4, 5,
      0x052300040a1e00050f190005191e0006191e0006⟩, none, some ⟨30, 10,
      0x050a0001050a00040a1e00010a1e00040a1e00071e2300091e230007191e005e23280007282d0007⟩⟩,
  ⟨c!"MAP_SAFARI_ZONE_NORTHWEST", c!"SafariZone_Northwest_Sapphire", some ⟨25, 12,
      0x1b1b005f1b1b00431d1d005f1d1d00431b1b00601d1d005b1f1f005b1d1d00601d1d00611b1b00621f1f00611d1d0062⟩, some ⟨9, 5,
      0x141e0063141e00631e2300631e23006419280064⟩, none, some ⟨35, 10,
      0x050a0001050a00020a1e00010a1900020a1e0002191e00021e2300021e23006523280065191e0065⟩⟩,
  ⟨c!"MAP_SAFARI_ZONE_NORTHEAST", c!"SafariZone_Northeast_Sapphire", some ⟨25, 12,
      0x1b1b00661b1b00431d1d00661d1d00431b1b00671d1d005b1f1f005b1d1d00671d1d00681b1b00691f1f00681d1d0069⟩, none, some ⟨25, 5,
      0x0a0f0016050a00160f14001614190016191e0016⟩, none⟩,
  ⟨c!"MAP_SAFARI_ZONE_SOUTHWEST", c!"SafariZone_Southwest_Sapphire", some ⟨25, 12,
      0x191900431b1b00431919006a1b1b006a191900671b1b00601919005b1b1b006b1919006c1b1b006b1b1b006c1d1d006b⟩, some ⟨9, 5,
      0x141e0063141e00631e2300631e2300631e230063⟩, none, some ⟨35, 10,
      0x050a0001050a00020a1e00010a1900020a1e0002191e00021e2300021e23006523280065191e0065⟩⟩,
  ⟨c!"MAP_SAFARI_ZONE_SOUTHEAST", c!"SafariZone_Southeast_Sapphire", some ⟨25, 12,
      0x191900431b1b00431919006a1b1b006a19190067191900601919005b1b1b006b1919006c1b1b006b1b1b006c1d1d006b⟩, none, none, none⟩,
  ⟨c!"MAP_DEWFORD_TOWN", c!"DewfordTown_Sapphire", none, some ⟨4, 5,
      0x052300040a1e00050f190005191e0006191e0006⟩, none, some ⟨10, 10,
      0x050a0001050a00040a1e00010a1e00040a1e0007191e00071e2300071419000723280007282d0007⟩⟩,
  ⟨c!"MAP_PACIFIDLOG_TOWN", c!"PacifidlogTown_Sapphire", none, some ⟨4, 5,
      0x052300040a1e00050f190005191e0006191e0006⟩, none, some ⟨10, 10,
      0x050a0001050a00040a1e00010a1e00040a1e00071e2300091e230007191e000723280007282d0007⟩⟩,
  ⟨c!"MAP_UNDERWATER1", c!"Underwater1_Sapphire", none, some ⟨4, 5,
      0x141e006d141e006e1e23006d1e23006f1e23006f⟩, none, none⟩,
  ⟨c!"MAP_UNDERWATER2", c!"Underwater2_Sapphire", none, some ⟨4, 5,
      0x141e006d141e006e1e23006d1e23006f1e23006f⟩, none, none⟩]

set_option maxRecDepth 10000 in
/-- resources/encount/e_wild_encounters.json -/
def eRaw : List Raw := [
  ⟨c!"MAP_ROUTE101", c!"gRoute101", some ⟨20, 12,
      0x0202001b0202003c0202001b0303001b0303003c0303003c0303001b0303003c0202001a0202001a0303001a0303001a⟩, none, none, none⟩,
  ⟨c!"MAP_ROUTE102", c!"gRoute102", some ⟨20, 12,
      0x0303003c0303001b0404003c0404001b03030073040400730303001a0303001a0404001a0404003e0404001a0303003d⟩, some ⟨4, 5,
      0x141e00000a1400001e230000050a0000141e0002⟩, none, some ⟨30, 10,
      0x050a0001050a00020a1e00010a1e00020a1e0003191e00031e2300031419000323280003282d0003⟩⟩,
  ⟨c!"MAP_ROUTE103", c!"gRoute103", some ⟨20, 12,
      0x0202003c0303003c0303003c0404003c020200050303001a0303001a0404001a03030005030300050202000504040005⟩, some ⟨4, 5,
      0x052300040a1e00050f190005191e0006191e0006⟩, none, some ⟨30, 10,
      0x050a0001050a00040a1e00010a1e00040a1e00071e2300091e230007191e000723280007282d0007⟩⟩,
  ⟨c!"MAP_ROUTE104", c!"gRoute104", some ⟨20, 12,
      0x0404003c0404001b0505003c05050000040400000505003c0404001f0505001f04040005040400050303000505050005⟩, some ⟨4, 5,
      0x0a1e00050f1900050f190005191e0006191e0006⟩, none, some ⟨30, 10,
      0x050a0001050a00010a1e00010a1e00010a1e0001191e00011e2300011419000123280001282d0001⟩⟩,
  ⟨c!"MAP_ROUTE105", c!"gRoute105", none, some ⟨4, 5,
      0x052300040a1e00050f190005191e0006191e0006⟩, none, some ⟨30, 10,
      0x050a0001050a00040a1e00010a1e00040a1e0007191e00071e2300071419000723280007282d0007⟩⟩,
  ⟨c!"MAP_ROUTE110", c!"gRoute110", some ⟨20, 12,
      0x0c0c003c0c0c00400c0c00410d0d00400d0d00420d0d00430d0d00420d0d00410c0c00050c0c00050c0c00440d0d0044⟩, some ⟨4, 5,
      0x052300040a1e00050f190005191e0006191e0006⟩, none, some ⟨30, 10,
      0x050a0001050a00040a1e00010a1e00040a1e0007191e00071e2300071419000723280007282d0007⟩⟩,
  ⟨c!"MAP_ROUTE111", c!"gRoute111", some ⟨10, 12,
      0x141400451414004615150045151500461313004815150048131300451313004614140048141400471616004716160047⟩, some ⟨4, 5,
      0x141e00000a1400001e230000050a0000141e0002⟩, some ⟨20, 5,
      0x0a0f0016050a00160f1400160f1400160f140016⟩, some ⟨30, 10,
      0x050a0001050a00020a1e00010a1e00020a1e000f191e000f1e23000f1419000f2328000f282d000f⟩⟩,
  ⟨c!"MAP_ROUTE112", c!"gRoute112", some ⟨20, 12,
      0x0f0f00210f0f00210f0f00000e0e00210e0e00210e0e0000101000211010000010100021101000211010002110100021⟩, none, none, none⟩,
  ⟨c!"MAP_ROUTE113", c!"gRoute113", some ⟨20, 12,
      0x0f0f00490f0f00490f0f00260e0e00490e0e00490e0e00261010004910100026101000491010004a101000491010004a⟩, none, none, none⟩,
  ⟨c!"MAP_ROUTE114", c!"gRoute114", some ⟨20, 12,
      0x1010004b101000731111004b0f0f004b0f0f0073101000751010007512120075111100740f0f0074111100740f0f004d⟩, some ⟨4, 5,
      0x141e00000a1400001e230000050a0000141e0002⟩, some ⟨20, 5,
      0x0a0f0016050a00160f1400160f1400160f140016⟩, some ⟨30, 10,
      0x050a0001050a00020a1e00010a1e00020a1e000f191e000f1e23000f1419000f2328000f282d000f⟩⟩,
  ⟨c!"MAP_ROUTE116", c!"gRoute116", some ⟨20, 12,
      0x0606003c060600130606005007070015070700500606001f0707001f0808001f0707003c0808003c0707005108080051⟩, none, none, none⟩,
  ⟨c!"MAP_ROUTE117", c!"gRoute117", some ⟨20, 12,
      0x0d0d003c0d0d00430e0e003c0e0e00430d0d00000d0d00430d0d00530d0d00530e0e00530e0e00530d0d00540d0d003d⟩, some ⟨4, 5,
      0x141e00000a1400001e230000050a0000141e0002⟩, none, some ⟨30, 10,
      0x050a0001050a00020a1e00010a1e00020a1e0003191e00031e2300031419000323280003282d0003⟩⟩,
  ⟨c!"MAP_ROUTE118", c!"gRoute118", some ⟨20, 12,
      0x1818001a181800401a1a001a1a1a00401a1a00551a1a005619190005191900051a1a00051a1a00051b1b000519190057⟩, some ⟨4, 5,
      0x052300040a1e00050f190005191e0006191e0006⟩, none, some ⟨30, 10,
      0x050a0001050a00040a1e00010a1e00040a1e00581e2300091e2300581419005823280058282d0058⟩⟩,
  ⟨c!"MAP_ROUTE124", c!"gRoute124", none, some ⟨4, 5,
      0x052300040a1e00050f190005191e0006191e0006⟩, none, some ⟨30, 10,
      0x050a0001050a00040a1e00010a1e00040a1e00071e2300091e230007191e000723280007282d0007⟩⟩,
  ⟨c!"MAP_PETALBURG_WOODS", c!"gPetalburgWoods", some ⟨20, 12,
      0x0505003c0505001b0505001c0606003c0505001d0505001e0606001b0606001c0505001f050500200606001f06060020⟩, none, none, none⟩,
  ⟨c!"MAP_RUSTURF_TUNNEL", c!"gRusturfTunnel", some ⟨10, 12,
      0x060600130707001306060013060600130707001307070013050500130808001305050013080800130505001308080013⟩, none, none, none⟩,
  ⟨c!"MAP_GRANITE_CAVE_1F", c!"gGraniteCave_1F", some ⟨10, 12,
      0x0707000d08080014070700140808000d09090014080800150a0a00140606001407070016080800160606001609090016⟩, none, none, none⟩,
  ⟨c!"MAP_GRANITE_CAVE_B1F", c!"gGraniteCave_B1F", some ⟨10, 12,
      0x0909000d0a0a0017090900170b0b00170a0a000d090900150a0a00140b0b00140a0a00710a0a0071090900710b0b0071⟩, none, none, none⟩,
  ⟨c!"MAP_MT_PYRE_1F", c!"gMtPyre_1F", some ⟨10, 12,
      0x1b1b00291c1c00291a1a0029191900291d1d00291818002917170029161600291d1d0029181800291d1d002918180029⟩, none, none, none⟩,
  ⟨c!"MAP_VICTORY_ROAD_1F", c!"gVictoryRoad_1F", some ⟨10, 12,
      0x282800102828002d2828002e2828002f2424000d24240014262600102626002d24240017242400132424001724240013⟩, none, none, none⟩,
  ⟨c!"MAP_SAFARI_ZONE_SOUTH", c!"gSafariZone_South", some ⟨25, 12,
      0x191900431b1b00431919006a1b1b006a19190067191900601919005b1b1b006b1919006c1b1b006b1b1b006c1d1d006b⟩, none, none, none⟩,
  ⟨c!"MAP_UNDERWATER_ROUTE126", c!"gUnderwater_Route126", none, some ⟨4, 5,
      0x141e006d141e006e1e23006d1e23006f1e23006f⟩, none, none⟩,
  ⟨c!"MAP_ABANDONED_SHIP_ROOMS_B1F", c!"gAbandonedShip_Rooms_B1F", none, some ⟨4, 5,
      0x052300040523000405230004052300041e230038⟩, none, some ⟨20, 10,
      0x050a0001050a00040a1e00010a1e00040a1e0004191e00041e2300041e230038191e003814190038⟩⟩,
  ⟨c!"MAP_GRANITE_CAVE_B2F", c!"gGraniteCave_B2F", some ⟨10, 12,
      0x0a0a000d0b0b00170a0a00170b0b000d0c0c00170a0a00150a0a00710b0b00710c0c00710a0a00710c0c00710a0a0071⟩, none, some ⟨20, 5,
      0x0a0f00160a140019050a00160f1400160f140016⟩, none⟩,
  ⟨c!"MAP_FIERY_PATH", c!"gFieryPath", some ⟨10, 12,
      0x0f0f00210f0f0024101000210f0f00220f0f00250f0f002610100024101000220e0e0025101000250e0e00270e0e0027⟩, none, none, none⟩,
  ⟨c!"MAP_METEOR_FALLS_B1F_2R", c!"gMeteorFalls_B1F_2R", some ⟨10, 12,
      0x21210010232300101e1e00122323000e232300122525000e191900122727000e26260010282800102626001028280010⟩, some ⟨4, 5,
      0x1e2300101e2300101923000e0f19000e050f000e⟩, none, some ⟨30, 10,
      0x050a0001050a00020a1e00010a1e00020a1e000f191e000f1e23000f1e23001123280011282d0011⟩⟩,
  ⟨c!"MAP_JAGGED_PASS", c!"gJaggedPass", some ⟨20, 12,
      0x151500211515002115150022141400211414002314140022151500231616002216160021161600231616002116160023⟩, none, none, none⟩,
  ⟨c!"MAP_ROUTE106", c!"gRoute106", none, some ⟨4, 5,
      0x052300040a1e00050f190005191e0006191e0006⟩, none, some ⟨30, 10,
      0x050a0001050a00040a1e00010a1e00040a1e0007191e00071e2300071419000723280007282d0007⟩⟩,
  ⟨c!"MAP_ROUTE107", c!"gRoute107", none, some ⟨4, 5,
      0x052300040a1e00050f190005191e0006191e0006⟩, none, some ⟨30, 10,
      0x050a0001050a00040a1e00010a1e00040a1e0007191e00071e2300071419000723280007282d0007⟩⟩,
  ⟨c!"MAP_ROUTE108", c!"gRoute108", none, some ⟨4, 5,
      0x052300040a1e00050f190005191e0006191e0006⟩, none, some ⟨30, 10,
      0x050a0001050a00040a1e00010a1e00040a1e0007191e00071e2300071419000723280007282d0007⟩⟩,
  ⟨c!"MAP_ROUTE109", c!"gRoute109", none, some ⟨4, 5,
      0x052300040a1e00050f190005191e0006191e0006⟩, none, some ⟨30, 10,
      0x050a0001050a00040a1e00010a1e00040a1e0007191e00071e2300071419000723280007282d0007⟩⟩,
  ⟨c!"MAP_ROUTE115", c!"gRoute115", some ⟨20, 12,
      0x1717004b1717001f1919004b1818001f1919001f1919004e1818004f1919004f18180005181800051a1a000519190005⟩, some ⟨4, 5,
      0x052300040a1e00050f190005191e0006191e0006⟩, none, some ⟨30, 10,
      0x050a0001050a00040a1e00010a1e00040a1e0007191e00071e2300071419000723280007282d0007⟩⟩,
  ⟨c!"MAP_NEW_MAUVILLE_INSIDE", c!"gNewMauville_Inside", some ⟨10, 12,
      0x1818003418180035191900341919003517170034171700351a1a00341a1a003516160034161600351a1a00361a1a0037⟩, none, none, none⟩,
  ⟨c!"MAP_ROUTE119", c!"gRoute119", some ⟨15, 12,
      0x1919001a191900551b1b001a191900431b1b00551a1a00431b1b004318180043191900591a1a00591b1b005919190057⟩, some ⟨4, 5,
      0x052300040a1e00050f190005191e0006191e0006⟩, none, some ⟨30, 10,
      0x050a0001050a00040a1e00010a1e00040a1e0058191e00581e2300581419005823280058282d0058⟩⟩,
  ⟨c!"MAP_ROUTE120", c!"gRoute120", some ⟨20, 12,
      0x1919003c191900761b1b007619190043191900001a1a00431b1b00431b1b00001919005a1b1b005a191900571919003d⟩, some ⟨4, 5,
      0x141e00000a1400001e230000050a0000141e0002⟩, none, some ⟨30, 10,
      0x050a0001050a00020a1e00010a1e00020a1e000f191e000f1e23000f1419000f2328000f282d000f⟩⟩,
  ⟨c!"MAP_ROUTE121", c!"gRoute121", some ⟨20, 12,
      0x1a1a003c1a1a00291a1a00761c1c00291c1c00761a1a00431c1c00431c1c005b1a1a00051b1b00051c1c000519190057⟩, some ⟨4, 5,
      0x052300040a1e00050f190005191e0006191e0006⟩, none, some ⟨30, 10,
      0x050a0001050a00040a1e00010a1e00040a1e0007191e00071e2300071419000723280007282d0007⟩⟩,
  ⟨c!"MAP_ROUTE122", c!"gRoute122", none, some ⟨4, 5,
      0x052300040a1e00050f190005191e0006191e0006⟩, none, some ⟨30, 10,
      0x050a0001050a00040a1e00010a1e00040a1e00071e2300091e230007191e000723280007282d0007⟩⟩,
  ⟨c!"MAP_ROUTE123", c!"gRoute123", some ⟨20, 12,
      0x1a1a003c1a1a00291a1a00761c1c00291c1c00761a1a00431c1c00431c1c005b1a1a00051b1b00051c1c000519190057⟩, some ⟨4, 5,
      0x052300040a1e00050f190005191e0006191e0006⟩, none, some ⟨30, 10,
      0x050a0001050a00040a1e00010a1e00040a1e0007191e00071e2300071419000723280007282d0007⟩⟩,
  ⟨c!"MAP_MT_PYRE_2F", c!"gMtPyre_2F", some ⟨10, 12,
      0x1b1b00291c1c00291a1a0029191900291d1d00291818002917170029161600291d1d0029181800291d1d002918180029⟩, none, none, none⟩,
  ⟨c!"MAP_MT_PYRE_3F", c!"gMtPyre_3F", some ⟨10, 12,
      0x1b1b00291c1c00291a1a0029191900291d1d00291818002917170029161600291d1d0029181800291d1d002918180029⟩, none, none, none⟩,
  ⟨c!"MAP_MT_PYRE_4F", c!"gMtPyre_4F", some ⟨10, 12,
      0x1b1b00291c1c00291a1a0029191900291d1d00291818002917170029161600291b1b00281b1b0028191900281d1d0028⟩, none, none, none⟩,
  ⟨c!"MAP_MT_PYRE_5F", c!"gMtPyre_5F", some ⟨10, 12,
      0x1b1b00291c1c00291a1a0029191900291d1d00291818002917170029161600291b1b00281b1b0028191900281d1d0028⟩, none, none, none⟩,
  ⟨c!"MAP_MT_PYRE_6F", c!"gMtPyre_6F", some ⟨10, 12,
      0x1b1b00291c1c00291a1a0029191900291d1d00291818002917170029161600291b1b00281b1b0028191900281d1d0028⟩, none, none, none⟩,
  ⟨c!"MAP_MT_PYRE_EXTERIOR", c!"gMtPyre_Exterior", some ⟨10, 12,
      0x1b1b00291b1b00291c1c00291d1d00291d1d002b1b1b002b1d1d002b1919002b1b1b00051b1b00051a1a00051c1c0005⟩, none, none, none⟩,
  ⟨c!"MAP_MT_PYRE_SUMMIT", c!"gMtPyre_Summit", some ⟨10, 12,
      0x1c1c00291d1d00291b1b00291a1a00291e1e002919190029181800291c1c00281a1a00281e1e00281c1c002c1c1c002c⟩, none, none, none⟩,
  ⟨c!"MAP_GRANITE_CAVE_STEVENS_ROOM", c!"gGraniteCave_StevensRoom", some ⟨10, 12,
      0x0707000d08080014070700140808000d09090014080800150a0a00140606001407070017080800170707001708080017⟩, none, none, none⟩,
  ⟨c!"MAP_ROUTE125", c!"gRoute125", none, some ⟨4, 5,
      0x052300040a1e00050f190005191e0006191e0006⟩, none, some ⟨30, 10,
      0x050a0001050a00040a1e00010a1e00040a1e00071e2300091e230007191e000723280007282d0007⟩⟩,
  ⟨c!"MAP_ROUTE126", c!"gRoute126", none, some ⟨4, 5,
      0x052300040a1e00050f190005191e0006191e0006⟩, none, some ⟨30, 10,
      0x050a0001050a00040a1e00010a1e00040a1e00071e2300091e230007191e000723280007282d0007⟩⟩,
  ⟨c!"MAP_ROUTE127", c!"gRoute127", none, some ⟨4, 5,
      0x052300040a1e00050f190005191e0006191e0006⟩, none, some ⟨30, 10,
      0x050a0001050a00040a1e00010a1e00040a1e00071e2300091e230007191e000723280007282d0007⟩⟩,
  ⟨c!"MAP_ROUTE128", c!"gRoute128", none, some ⟨4, 5,
      0x052300040a1e00050f190005191e0006191e0006⟩, none, some ⟨30, 10,
      0x050a0001050a00040a1e00010a1e000b0a1e00071e23000b1e2300071e23000c23280007282d0007⟩⟩,
  ⟨c!"MAP_ROUTE129", c!"gRoute129", none, some ⟨4, 5,
      0x052300040a1e00050f190005191e0006191e005c⟩, none, some ⟨30, 10,
      0x050a0001050a00040a1e00010a1e00040a1e00071e2300091e230007191e000723280007282d0007⟩⟩,
  ⟨c!"MAP_ROUTE130", c!"gRoute130", some ⟨20, 12,
      0x1e1e005d2323005d1919005d2828005d1414005d2d2d005d0f0f005d3232005d0a0a005d0505005d0a0a005d0505005d⟩, some ⟨4, 5,
      0x052300040a1e00050f190005191e0006191e0006⟩, none, some ⟨30, 10,
      0x050a0001050a00040a1e00010a1e00040a1e00071e2300091e230007191e000723280007282d0007⟩⟩,
  ⟨c!"MAP_ROUTE131", c!"gRoute131", none, some ⟨4, 5,
      0x052300040a1e00050f190005191e0006191e0006⟩, none, some ⟨30, 10,
      0x050a0001050a00040a1e00010a1e00040a1e00071e2300091e230007191e000723280007282d0007⟩⟩,
  ⟨c!"MAP_ROUTE132", c!"gRoute132", none, some ⟨4, 5,
      0x052300040a1e00050f190005191e0006191e0006⟩, none, some ⟨30, 10,
      0x050a0001050a00040a1e00010a1e00040a1e00071e2300091e230007191e005e23280007282d0007⟩⟩,
  ⟨c!"MAP_ROUTE133", c!"gRoute133", none, some ⟨4, 5,
      0x052300040a1e00050f190005191e0006191e0006⟩, none, some ⟨30, 10,
      0x050a0001050a00040a1e00010a1e00040a1e00071e2300091e230007191e005e23280007282d0007⟩⟩,
  ⟨c!"MAP_ROUTE134", c!"gRoute134", none, some ⟨4, 5,
      0x052300040a1e00050f190005191e0006191e0006⟩, none, some ⟨30, 10,
      0x050a0001050a00040a1e00010a1e00040a1e00071e2300091e230007191e005e23280007282d0007⟩⟩,
  ⟨c!"MAP_ABANDONED_SHIP_HIDDEN_FLOOR_CORRIDORS", c!"gAbandonedShip_HiddenFloorCorridors", none, some ⟨4, 5,
      0x052300040523000405230004052300041e230038⟩, none, some ⟨20, 10,
      0x050a0001050a00040a1e00010a1e00040a1e0004191e00041e2300041e230038191e003814190038⟩⟩,
  ⟨c!"MAP_SEAFLOOR_CAVERN_ROOM1", c!"gSeafloorCavern_Room1", some ⟨4, 12,
      0x1e1e000d1f1f000d2020000d2121000d1c1c000d1d1d000d2222000d2323000d22220010232300102121001024240010⟩, none, none, none⟩,
  ⟨c!"MAP_SEAFLOOR_CAVERN_ROOM2", c!"gSeafloorCavern_Room2", some ⟨4, 12,
      0x1e1e000d1f1f000d2020000d2121000d1c1c000d1d1d000d2222000d2323000d22220010232300102121001024240010⟩, none, none, none⟩,
  ⟨c!"MAP_SEAFLOOR_CAVERN_ROOM3", c!"gSeafloorCavern_Room3", some ⟨4, 12,
      0x1e1e000d1f1f000d2020000d2121000d1c1c000d1d1d000d2222000d2323000d22220010232300102121001024240010⟩, none, none, none⟩,
  ⟨c!"MAP_SEAFLOOR_CAVERN_ROOM4", c!"gSeafloorCavern_Room4", some ⟨4, 12,
      0x1e1e000d1f1f000d2020000d2121000d1c1c000d1d1d000d2222000d2323000d22220010232300102121001024240010⟩, none, none, none⟩,
  ⟨c!"MAP_SEAFLOOR_CAVERN_ROOM5", c!"gSeafloorCavern_Room5", some ⟨4, 12,
      0x1e1e000d1f1f000d2020000d2121000d1c1c000d1d1d000d2222000d2323000d22220010232300102121001024240010⟩, none, none, none⟩,
  ⟨c!"MAP_SEAFLOOR_CAVERN_ROOM6", c!"gSeafloorCavern_Room6", some ⟨4, 12,
      0x1e1e000d1f1f000d2020000d2121000d1c1c000d1d1d000d2222000d2323000d22220010232300102121001024240010⟩, some ⟨4, 5,
      0x052300040523000d1e23000d1e2300101e230010⟩, none, some ⟨10, 10,
      0x050a0001050a00040a1e00010a1e00040a1e0007191e00071e2300071419000723280007282d0007⟩⟩,
  ⟨c!"MAP_SEAFLOOR_CAVERN_ROOM7", c!"gSeafloorCavern_Room7", some ⟨4, 12,
      0x1e1e000d1f1f000d2020000d2121000d1c1c000d1d1d000d2222000d2323000d22220010232300102121001024240010⟩, some ⟨4, 5,
      0x052300040523000d1e23000d1e2300101e230010⟩, none, some ⟨10, 10,
      0x050a0001050a00040a1e00010a1e00040a1e0007191e00071e2300071419000723280007282d0007⟩⟩,
  ⟨c!"MAP_SEAFLOOR_CAVERN_ROOM8", c!"gSeafloorCavern_Room8", some ⟨4, 12,
      0x1e1e000d1f1f000d2020000d2121000d1c1c000d1d1d000d2222000d2323000d22220010232300102121001024240010⟩, none, none, none⟩,
  ⟨c!"MAP_SEAFLOOR_CAVERN_ENTRANCE", c!"gSeafloorCavern_Entrance", none, some ⟨4, 5,
      0x052300040523000d1e23000d1e2300101e230010⟩, none, some ⟨10, 10,
      0x050a0001050a00040a1e00010a1e00040a1e0007191e00071e2300071419000723280007282d0007⟩⟩,
  ⟨c!"MAP_CAVE_OF_ORIGIN_ENTRANCE", c!"gCaveOfOrigin_Entrance", some ⟨4, 12,
      0x1e1e000d1f1f000d2020000d2121000d1c1c000d1d1d000d2222000d2323000d22220010232300102121001024240010⟩, none, none, none⟩,
  ⟨c!"MAP_CAVE_OF_ORIGIN_1F", c!"gCaveOfOrigin_1F", some ⟨4, 12,
      0x1e1e000d1f1f000d2020000d1e1e007120200071222200712121000d2222000d22220010232300102121001024240010⟩, none, none, none⟩,
  ⟨c!"MAP_CAVE_OF_ORIGIN_UNUSED_RUBY_SAPPHIRE_MAP1", c!"gCaveOfOrigin_UnusedRubySapphireMap1", some ⟨4, 12,
      0x1e1e000d1f1f000d2020000d1e1e007120200071222200712121000d2222000d22220010232300102121001024240010⟩, none, none, none⟩,
  ⟨c!"MAP_CAVE_OF_ORIGIN_UNUSED_RUBY_SAPPHIRE_MAP2", c!"gCaveOfOrigin_UnusedRubySapphireMap2", some ⟨4, 12,
      0x1e1e000d1f1f000d2020000d1e1e007120200071222200712121000d2222000d22220010232300102121001024240010⟩, none, none, none⟩,
  ⟨c!"MAP_CAVE_OF_ORIGIN_UNUSED_RUBY_SAPPHIRE_MAP3", c!"gCaveOfOrigin_UnusedRubySapphireMap3", some ⟨4, 12,
      0x1e1e000d1f1f000d2020000d1e1e007120200071222200712121000d2222000d22220010232300102121001024240010⟩, none, none, none⟩,
  ⟨c!"MAP_NEW_MAUVILLE_ENTRANCE", c!"gNewMauville_Entrance", some ⟨10, 12,
      0x1818003418180035191900341919003517170034171700351a1a00341a1a003516160034161600351616003416160035⟩, none, none, none⟩,
  ⟨c!"MAP_SAFARI_ZONE_SOUTHWEST", c!"gSafariZone_Southwest", some ⟨25, 12,
      0x191900431b1b00431919006a1b1b006a191900671b1b00601919005b1b1b006b1919006c1b1b006b1b1b006c1d1d006b⟩, some ⟨9, 5,
      0x141e0063141e00631e2300631e2300631e230063⟩, none, some ⟨35, 10,
      0x050a0001050a00020a1e00010a1900020a1e0002191e00021e2300021e23006523280065191e0065⟩⟩,
  ⟨c!"MAP_SAFARI_ZONE_NORTH", c!"gSafariZone_North", some ⟨25, 12,
      0x1b1b00661b1b00431d1d00661d1d00431b1b00671d1d005b1f1f005b1d1d00671d1d00681b1b00691f1f00681d1d0069⟩, none, some ⟨25, 5,
      0x0a0f0016050a00160f14001614190016191e0016⟩, none⟩,
  ⟨c!"MAP_SAFARI_ZONE_NORTHWEST", c!"gSafariZone_Northwest", some ⟨25, 12,
      0x1b1b005f1b1b00431d1d005f1d1d00431b1b00601d1d005b1f1f005b1d1d00601d1d00611b1b00621f1f00611d1d0062⟩, some ⟨9, 5,
      0x141e0063141e00631e2300631e23006419280064⟩, none, some ⟨35, 10,
      0x050a0001050a00020a1e00010a1900020a1e0002191e00021e2300021e23006523280065191e0065⟩⟩,
  ⟨c!"MAP_VICTORY_ROAD_B1F", c!"gVictoryRoad_B1F", some ⟨10, 12,
      0x282800102828002d2828002e2828002e262600102626002d2a2a00102a2a002d2a2a002e262600182a2a002e26260018⟩, none, some ⟨20, 5,
      0x1e2800311e280016232800312328003123280031⟩, none⟩,
  ⟨c!"MAP_VICTORY_ROAD_B2F", c!"gVictoryRoad_B2F", some ⟨10, 12,
      0x28280010282800712828002e2828002e2a2a00102a2a00712c2c00102c2c00712a2a002e2a2a00182c2c002e2c2c0018⟩, some ⟨4, 5,
      0x1e230010191e0010232800102328001023280010⟩, none, some ⟨30, 10,
      0x050a0001050a00020a1e00010a1e00020a1e000f191e000f1e23000f1e23001123280011282d0011⟩⟩,
  ⟨c!"MAP_METEOR_FALLS_1F_1R", c!"gMeteorFalls_1F_1R", some ⟨10, 12,
      0x1010000d1111000d1212000d0f0f000d0e0e000d1010000e1212000e0e0e000e1313000d1414000d1313000d1414000d⟩, some ⟨4, 5,
      0x0523000d1e23000d1923000e0f19000e050f000e⟩, none, some ⟨30, 10,
      0x050a0001050a00020a1e00010a1e00020a1e000f191e000f1e23000f1419000f2328000f282d000f⟩⟩,
  ⟨c!"MAP_METEOR_FALLS_1F_2R", c!"gMeteorFalls_1F_2R", some ⟨10, 12,
      0x2121001023230010212100102323000e2121000e2525000e232300102727000e26260010282800102626001028280010⟩, some ⟨4, 5,
      0x1e2300101e2300101923000e0f19000e050f000e⟩, none, some ⟨30, 10,
      0x050a0001050a00020a1e00010a1e00020a1e000f191e000f1e23000f1e23001123280011282d0011⟩⟩,
  ⟨c!"MAP_METEOR_FALLS_B1F_1R", c!"gMeteorFalls_B1F_1R", some ⟨10, 12,
      0x2121001023230010212100102323000e2121000e2525000e232300102727000e26260010282800102626001028280010⟩, some ⟨4, 5,
      0x1e2300101e2300101923000e0f19000e050f000e⟩, none, some ⟨30, 10,
      0x050a0001050a00020a1e00010a1e00020a1e000f191e000f1e23000f1e23001123280011282d0011⟩⟩,
  ⟨c!"MAP_SHOAL_CAVE_LOW_TIDE_STAIRS_ROOM", c!"gShoalCave_LowTideStairsRoom", some ⟨10, 12,
      0x1a1a000d1a1a00321c1c000d1c1c00321e1e000d1e1e00322020000d2020003220200010202000322020001020200032⟩, none, none, none⟩,
  ⟨c!"MAP_SHOAL_CAVE_LOW_TIDE_LOWER_ROOM", c!"gShoalCave_LowTideLowerRoom", some ⟨10, 12,
      0x1a1a000d1a1a00321c1c000d1c1c00321e1e000d1e1e00322020000d2020003220200010202000322020001020200032⟩, none, none, none⟩,
  ⟨c!"MAP_SHOAL_CAVE_LOW_TIDE_INNER_ROOM", c!"gShoalCave_LowTideInnerRoom", some ⟨10, 12,
      0x1a1a000d1a1a00321c1c000d1c1c00321e1e000d1e1e00322020000d2020003220200010202000322020001020200032⟩, some ⟨4, 5,
      0x052300040523000d191e0032191e003219230032⟩, none, some ⟨10, 10,
      0x050a0001050a00040a1e00010a1e00040a1e0007191e00071e2300071419000723280007282d0007⟩⟩,
  ⟨c!"MAP_SHOAL_CAVE_LOW_TIDE_ENTRANCE_ROOM", c!"gShoalCave_LowTideEntranceRoom", some ⟨10, 12,
      0x1a1a000d1a1a00321c1c000d1c1c00321e1e000d1e1e00322020000d2020003220200010202000322020001020200032⟩, some ⟨4, 5,
      0x052300040523000d191e0032191e003219230032⟩, none, some ⟨10, 10,
      0x050a0001050a00040a1e00010a1e00040a1e0007191e00071e2300071419000723280007282d0007⟩⟩,
  ⟨c!"MAP_LILYCOVE_CITY", c!"gLilycoveCity", none, some ⟨4, 5,
      0x052300040a1e00050f190005191e0006191e0006⟩, none, some ⟨10, 10,
      0x050a0001050a00040a1e00010a1e00040a1e0007191e00071e230007191e000823280007282d0007⟩⟩,
  ⟨c!"MAP_DEWFORD_TOWN", c!"gDewfordTown", none, some ⟨4, 5,
      0x052300040a1e00050f190005191e0006191e0006⟩, none, some ⟨10, 10,
      0x050a0001050a00040a1e00010a1e00040a1e0007191e00071e2300071419000723280007282d0007⟩⟩,
  ⟨c!"MAP_SLATEPORT_CITY", c!"gSlateportCity", none, some ⟨4, 5,
      0x052300040a1e00050f190005191e0006191e0006⟩, none, some ⟨10, 10,
      0x050a0001050a00040a1e00010a1e00040a1e0007191e00071e2300071419000723280007282d0007⟩⟩,
  ⟨c!"MAP_MOSSDEEP_CITY", c!"gMossdeepCity", none, some ⟨4, 5,
      0x052300040a1e00050f190005191e0006191e0006⟩, none, some ⟨10, 10,
      0x050a0001050a00040a1e00010a1e00040a1e00071e2300091e230007191e000723280007282d0007⟩⟩,
  ⟨c!"MAP_PACIFIDLOG_TOWN", c!"gPacifidlogTown", none, some ⟨4, 5,
      0x052300040a1e00050f190005191e0006191e0006⟩, none, some ⟨10, 10,
      0x050a0001050a00040a1e00010a1e00040a1e00071e2300091e230007191e000723280007282d0007⟩⟩,
  ⟨c!"MAP_EVER_GRANDE_CITY", c!"gEverGrandeCity", none, some ⟨4, 5,
      0x052300040a1e00050f190005191e0006191e0006⟩, none, some ⟨10, 10,
      0x050a0001050a00040a1e00010a1e000b0a1e00071e23000b1e2300071e23000c23280007282d0007⟩⟩,
  ⟨c!"MAP_PETALBURG_CITY", c!"gPetalburgCity", none, some ⟨1, 5,
      0x141e00000a1400001e230000050a0000050a0000⟩, none, some ⟨10, 10,
      0x050a0001050a00020a1e00010a1e00020a1e0003191e00031e2300031419000323280003282d0003⟩⟩,
  ⟨c!"MAP_UNDERWATER_ROUTE124", c!"gUnderwater_Route124", none, some ⟨4, 5,
      0x141e006d141e006e1e23006d1e23006f1e23006f⟩, none, none⟩,
  ⟨c!"MAP_SHOAL_CAVE_LOW_TIDE_ICE_ROOM", c!"gShoalCave_LowTideIceRoom", some ⟨10, 12,
      0x1a1a000d1a1a00321c1c000d1c1c00321e1e000d1e1e00321a1a0033202000321e1e00101c1c0033202000101e1e0033⟩, none, none, none⟩,
  ⟨c!"MAP_SKY_PILLAR_1F", c!"gSkyPillar_1F", some ⟨10, 12,
      0x212100712222001023230010222200712424003925250072262600722424003925250039262600392525003926260039⟩, none, none, none⟩,
  ⟨c!"MAP_SOOTOPOLIS_CITY", c!"gSootopolisCity", none, some ⟨1, 5,
      0x052300010a1e00010f190001191e0001191e0001⟩, none, some ⟨10, 10,
      0x050a0001050a00040a1e00010a1e00010a1e00011e2300011e2300012328000a232d000a052d000a⟩⟩,
  ⟨c!"MAP_SKY_PILLAR_3F", c!"gSkyPillar_3F", some ⟨10, 12,
      0x212100712222001023230010222200712424003925250072262600722424003925250039262600392525003926260039⟩, none, none, none⟩,
  ⟨c!"MAP_SKY_PILLAR_5F", c!"gSkyPillar_5F", some ⟨10, 12,
      0x2121007122220010232300102222007124240039252500722626007224240039252500392626003b2727003b2727003b⟩, none, none, none⟩,
  ⟨c!"MAP_SAFARI_ZONE_SOUTHEAST", c!"gSafariZone_Southeast", some ⟨25, 12,
      0x21210077222200782323007724240078222200792121007a2323007b2222007c2424007d2525007e2727007d2828007e⟩, some ⟨9, 5,
      0x191e007f191e0000191e00001e23000023280080⟩, none, some ⟨35, 10,
      0x191e0001191e0002191e0001191e00021e230081191e0002191e00811e2300811e23008123280082⟩⟩,
  ⟨c!"MAP_SAFARI_ZONE_NORTHEAST", c!"gSafariZone_Northeast", some ⟨25, 12,
      0x2121007922220083232300792424008322220077212100842323007b2222008524240086252500872727008628280087⟩, none, some ⟨25, 5,
      0x191e0088141900881e2300881e23008823280088⟩, none⟩,
  ⟨c!"MAP_MAGMA_HIDEOUT_1F", c!"gMagmaHideout_1F", some ⟨10, 12,
      0x1b1b00161c1c00251c1c00161e1e00251d1d00161e1e00161e1e00161e1e00311e1e00311f1f00312020003121210031⟩, none, none, none⟩,
  ⟨c!"MAP_MAGMA_HIDEOUT_2F_1R", c!"gMagmaHideout_2F_1R", some ⟨10, 12,
      0x1b1b00161c1c00251c1c00161e1e00251d1d00161e1e00161e1e00161e1e00311e1e00311f1f00312020003121210031⟩, none, none, none⟩,
  ⟨c!"MAP_MAGMA_HIDEOUT_2F_2R", c!"gMagmaHideout_2F_2R", some ⟨10, 12,
      0x1b1b00161c1c00251c1c00161e1e00251d1d00161e1e00161e1e00161e1e00311e1e00311f1f00312020003121210031⟩, none, none, none⟩,
  ⟨c!"MAP_MAGMA_HIDEOUT_3F_1R", c!"gMagmaHideout_3F_1R", some ⟨10, 12,
      0x1b1b00161c1c00251c1c00161e1e00251d1d00161e1e00161e1e00161e1e00311e1e00311f1f00312020003121210031⟩, none, none, none⟩,
  ⟨c!"MAP_MAGMA_HIDEOUT_3F_2R", c!"gMagmaHideout_3F_2R", some ⟨10, 12,
      0x1b1b00161c1c00251c1c00161e1e00251d1d00161e1e00161e1e00161e1e00311e1e00311f1f00312020003121210031⟩, none, none, none⟩,
  ⟨c!"MAP_MAGMA_HIDEOUT_4F", c!"gMagmaHideout_4F", some ⟨10, 12,
      0x1b1b00161c1c00251c1c00161e1e00251d1d00161e1e00161e1e00161e1e00311e1e00311f1f00312020003121210031⟩, none, none, none⟩,
  ⟨c!"MAP_MAGMA_HIDEOUT_3F_3R", c!"gMagmaHideout_3F_3R", some ⟨10, 12,
      0x1b1b00161c1c00251c1c00161e1e00251d1d00161e1e00161e1e00161e1e00311e1e00311f1f00312020003121210031⟩, none, none, none⟩,
  ⟨c!"MAP_MAGMA_HIDEOUT_2F_3R", c!"gMagmaHideout_2F_3R", some ⟨10, 12,
      0x1b1b00161c1c00251c1c00161e1e00251d1d00161e1e00161e1e00161e1e00311e1e00311f1f00312020003121210031⟩, none, none, none⟩,
  ⟨c!"MAP_MIRAGE_TOWER_1F", c!"gMirageTower_1F", some ⟨10, 12,
      0x151500451515004614140045141400461414004514140046161600451616004617170045171700461818004518180046⟩, none, none, none⟩,
  ⟨c!"MAP_MIRAGE_TOWER_2F", c!"gMirageTower_2F", some ⟨10, 12,
      0x151500451515004614140045141400461414004514140046161600451616004617170045171700461818004518180046⟩, none, none, none⟩,
  ⟨c!"MAP_MIRAGE_TOWER_3F", c!"gMirageTower_3F", some ⟨10, 12,
      0x151500451515004614140045141400461414004514140046161600451616004617170045171700461818004518180046⟩, none, none, none⟩,
  ⟨c!"MAP_MIRAGE_TOWER_4F", c!"gMirageTower_4F", some ⟨10, 12,
      0x151500451515004614140045141400461414004514140046161600451616004617170045171700461818004518180046⟩, none, none, none⟩,
  ⟨c!"MAP_DESERT_UNDERPASS", c!"gDesertUnderpass", some ⟨10, 12,
      0x2626008923230013282800892828002f29290089242400132626002f2a2a0089262600132b2b00892c2c002f2d2d0089⟩, none, none, none⟩,
  ⟨c!"MAP_ARTISAN_CAVE_B1F", c!"gArtisanCave_B1F", some ⟨10, 12,
      0x2828008a2929008a2a2a008a2b2b008a2c2c008a2d2d008a2e2e008a2f2f008a3030008a3131008a3232008a3232008a⟩, none, none, none⟩,
  ⟨c!"MAP_ARTISAN_CAVE_1F", c!"gArtisanCave_1F", some ⟨10, 12,
      0x2828008a2929008a2a2a008a2b2b008a2c2c008a2d2d008a2e2e008a2f2f008a3030008a3131008a3232008a3232008a⟩, none, none, none⟩,
  ⟨c!"MAP_ALTERING_CAVE", c!"gAlteringCave1", some ⟨7, 12,
      0x0a0a000d0c0c000d0808000d0e0e000d0a0a000d0c0c000d1010000d0606000d0808000d0e0e000d0808000d0e0e000d⟩, none, none, none⟩,
  ⟨c!"MAP_ALTERING_CAVE", c!"gAlteringCave2", some ⟨7, 12,
      0x0707007809090078050500780b0b007807070078090900780d0d007803030078050500780b0b0078050500780b0b0078⟩, none, none, none⟩,
  ⟨c!"MAP_ALTERING_CAVE", c!"gAlteringCave3", some ⟨7, 12,
      0x1717008519190085161600851b1b008517170085191900851d1d008513130085151500851b1b0085151500851b1b0085⟩, none, none, none⟩,
  ⟨c!"MAP_ALTERING_CAVE", c!"gAlteringCave4", some ⟨7, 12,
      0x10100086121200860e0e0086141400861010008612120086161600860c0c00860e0e0086141400860e0e008614140086⟩, none, none, none⟩,
  ⟨c!"MAP_ALTERING_CAVE", c!"gAlteringCave5", some ⟨7, 12,
      0x0a0a00830c0c0083080800830e0e00830a0a00830c0c00831010008306060083080800830e0e0083080800830e0e0083⟩, none, none, none⟩,
  ⟨c!"MAP_ALTERING_CAVE", c!"gAlteringCave6", some ⟨7, 12,
      0x1616007918180079141400791a1a007916160079181800791c1c007912120079141400791a1a0079141400791a1a0079⟩, none, none, none⟩,
  ⟨c!"MAP_ALTERING_CAVE", c!"gAlteringCave7", some ⟨7, 12,
      0x1616008818180088141400881a1a008816160088181800881c1c008812120088141400881a1a0088141400881a1a0088⟩, none, none, none⟩,
  ⟨c!"MAP_ALTERING_CAVE", c!"gAlteringCave8", some ⟨7, 12,
      0x1616007d1818007d1414007d1a1a007d1616007d1818007d1c1c007d1212007d1414007d1a1a007d1414007d1a1a007d⟩, none, none, none⟩,
  ⟨c!"MAP_ALTERING_CAVE", c!"gAlteringCave9", some ⟨7, 12,
      0x1616008a1818008a1414008a1a1a008a1616008a1818008a1c1c008a1212008a1414008a1a1a008a1414008a1a1a008a⟩, none, none, none⟩,
  ⟨c!"MAP_METEOR_FALLS_STEVENS_CAVE", c!"gMeteorFalls_StevensCave", some ⟨10, 12,
      0x2121001023230010212100102323000e2121000e2525000e232300102727000e26260010282800102626001028280010⟩, none, none, none⟩]

set_option maxRecDepth 10000 in
/-- resources/encount/frlg_wild_encounters.json -/
def frlgRaw : List Raw := [
  ⟨c!"MAP_SEVEN_ISLAND_TANOBY_RUINS_MONEAN_CHAMBER", c!"sSevenIslandTanobyRuinsMoneanChamber_FireRed", some ⟨7, 12,
      0x1919008b1919008b1919008b1919008b1919008b1919008b1919008b1919008b1919008b1919008b1919008b1919008b⟩, none, none, none⟩,
  ⟨c!"MAP_SEVEN_ISLAND_TANOBY_RUINS_LIPTOO_CHAMBER", c!"sSevenIslandTanobyRuinsLiptooChamber_FireRed", some ⟨7, 12,
      0x1919008b1919008b1919008b1919008b1919008b1919008b1919008b1919008b1919008b1919008b1919008b1919008b⟩, none, none, none⟩,
  ⟨c!"MAP_SEVEN_ISLAND_TANOBY_RUINS_WEEPTH_CHAMBER", c!"sSevenIslandTanobyRuinsWeepthChamber_FireRed", some ⟨7, 12,
      0x1919008b1919008b1919008b1919008b1919008b1919008b1919008b1919008b1919008b1919008b1919008b1919008b⟩, none, none, none⟩,
  ⟨c!"MAP_SEVEN_ISLAND_TANOBY_RUINS_DILFORD_CHAMBER", c!"sSevenIslandTanobyRuinsDilfordChamber_FireRed", some ⟨7, 12,
      0x1919008b1919008b1919008b1919008b1919008b1919008b1919008b1919008b1919008b1919008b1919008b1919008b⟩, none, none, none⟩,
  ⟨c!"MAP_SEVEN_ISLAND_TANOBY_RUINS_SCUFIB_CHAMBER", c!"sSevenIslandTanobyRuinsScufibChamber_FireRed", some ⟨7, 12,
      0x1919008b1919008b1919008b1919008b1919008b1919008b1919008b1919008b1919008b1919008b1919008b1919008b⟩, none, none, none⟩,
  ⟨c!"MAP_SEVEN_ISLAND_TANOBY_RUINS_RIXY_CHAMBER", c!"sSevenIslandTanobyRuinsRixyChamber_FireRed", some ⟨7, 12,
      0x1919008b1919008b1919008b1919008b1919008b1919008b1919008b1919008b1919008b1919008b1919008b1919008b⟩, none, none, none⟩,
  ⟨c!"MAP_SEVEN_ISLAND_TANOBY_RUINS_VIAPOIS_CHAMBER", c!"sSevenIslandTanobyRuinsViapoisChamber_FireRed", some ⟨7, 12,
      0x1919008b1919008b1919008b1919008b1919008b1919008b1919008b1919008b1919008b1919008b1919008b1919008b⟩, none, none, none⟩,
  ⟨c!"MAP_VIRIDIAN_FOREST", c!"sViridianForest_FireRed", some ⟨14, 12,
      0x0404008c0404008d0505008c0505008d0303008c0303008d0505008e0505008f0404008f0303006c0606008f0505006c⟩, none, none, none⟩,
  ⟨c!"MAP_MT_MOON_1F", c!"sMtMoon1F_FireRed", some ⟨7, 12,
      0x0707000d0808000d070700160909000d0a0a000d0808001609090016080800900707000d0707000d0707000d08080091⟩, none, none, none⟩,
  ⟨c!"MAP_MT_MOON_B1F", c!"sMtMoonB1F_FireRed", some ⟨5, 12,
      0x07070090080800900505009006060090090900900a0a009007070090080800900505009006060090090900900a0a0090⟩, none, none, none⟩,
  ⟨c!"MAP_MT_MOON_B2F", c!"sMtMoonB2F_FireRed", some ⟨7, 12,
      0x0808000d090900160909000d0a0a000d0a0a00160a0a00900c0c00900a0a00910b0b000d0b0b000d0b0b000d0c0c0091⟩, none, none, none⟩,
  ⟨c!"MAP_SSANNE_EXTERIOR", c!"sSSAnneExterior_FireRed", none, some ⟨1, 5,
      0x050a00040a140004141e00041e23000423280004⟩, none, some ⟨10, 10,
      0x0505000105050001050f005e050f0001050f00920f19005e0f1900930f19000a1923005e19230063⟩⟩,
  ⟨c!"MAP_DIGLETTS_CAVE_B1F", c!"sDiglettsCaveB1F_FireRed", some ⟨5, 12,
      0x1212009413130094111100940f0f009410100094141400941515009416160094111100941d1d0095111100941f1f0095⟩, none, none, none⟩,
  ⟨c!"MAP_VICTORY_ROAD_1F", c!"sVictoryRoad1F_FireRed", some ⟨7, 12,
      0x2020002220200016282800962b2b00962e2e00962020000d2c2c00972c2c00102c2c00982c2c00992e2e00992e2e0098⟩, none, none, none⟩,
  ⟨c!"MAP_VICTORY_ROAD_2F", c!"sVictoryRoad2F_FireRed", some ⟨7, 12,
      0x22220022222200162a2a009a2d2d0096303000962222000d2e2e00972e2e00102e2e00982e2e00993030009930300098⟩, none, none, none⟩,
  ⟨c!"MAP_VICTORY_ROAD_3F", c!"sVictoryRoad3F_FireRed", some ⟨7, 12,
      0x2020002220200016282800962b2b00962e2e00962020000d2c2c00972c2c00102c2c00982c2c00992e2e00992e2e0098⟩, none, none, none⟩,
  ⟨c!"MAP_POKEMON_MANSION_1F", c!"sPokemonMansion1F_FireRed", some ⟨7, 12,
      0x1c1c00242020009b1e1e00242424009b1e1e009c1c1c009d1c1c00272020009e2020009c1a1a009d2020009c1a1a009d⟩, none, none, none⟩,
  ⟨c!"MAP_POKEMON_MANSION_2F", c!"sPokemonMansion2F_FireRed", some ⟨7, 12,
      0x1c1c00242020009b1e1e00242424009b1e1e009c1c1c009d1c1c00272020009e2020009c1a1a009d2020009c1a1a009d⟩, none, none, none⟩,
  ⟨c!"MAP_POKEMON_MANSION_3F", c!"sPokemonMansion3F_FireRed", some ⟨7, 12,
      0x1c1c00242020009b1e1e00242424009b1e1e009c1c1c009d1c1c00272020009e2020009c1a1a009d2020009c1a1a009d⟩, none, none, none⟩,
  ⟨c!"MAP_POKEMON_MANSION_B1F", c!"sPokemonMansionB1F_FireRed", some ⟨5, 12,
      0x1c1c00242222009b1e1e00241e1e00891e1e009c2626009b1c1c00272222009e2020009c1a1a009d2020009c1a1a009d⟩, none, none, none⟩,
  ⟨c!"MAP_SAFARI_ZONE_CENTER", c!"sSafariZoneCenter_FireRed", some ⟨21, 12,
      0x1919005f1616009f181800a0191900a0161600a11f1f00a21f1f00a31e1e00a4161600a1171700a5161600a1171700a6⟩, some ⟨2, 5,
      0x1419006314190063191e00631e23006323280063⟩, none, some ⟨20, 10,
      0x0505000105050001050f0002050f0001050f00a70f190002141e00650f1900a80f230063192300a9⟩⟩,
  ⟨c!"MAP_SAFARI_ZONE_EAST", c!"sSafariZoneEast_FireRed", some ⟨21, 12,
      0x1818009f1a1a0060171700a0191900a016160090212100a2181800aa191900a416160090191900ab161600901c1c00a5⟩, some ⟨2, 5,
      0x1419006314190063191e00631e23006323280063⟩, none, some ⟨20, 10,
      0x0505000105050001050f0002050f0001050f00a70f190002141e00650f1900a80f230063192300a9⟩⟩,
  ⟨c!"MAP_SAFARI_ZONE_NORTH", c!"sSafariZoneNorth_FireRed", some ⟨21, 12,
      0x1a1a005f1e1e009f191900a01b1b00a0171700901e1e00a21e1e00a3202000ac171700901a1a00a6171700901c1c00ad⟩, some ⟨2, 5,
      0x1419006314190063191e00631e23006323280063⟩, none, some ⟨20, 10,
      0x0505000105050001050f0002050f0001050f00a70f190002141e00650f1900a80f230063192300a9⟩⟩,
  ⟨c!"MAP_SAFARI_ZONE_WEST", c!"sSafariZoneWest_FireRed", some ⟨21, 12,
      0x1a1a00601616009f191900a01b1b00a0171700a11e1e00a21e1e00aa202000ac171700a1191900ad171700a11c1c00ab⟩, some ⟨2, 5,
      0x1419006314190063191e00631e23006323280063⟩, none, some ⟨20, 10,
      0x0505000105050001050f0002050f0001050f00a70f190002141e00650f1900a80f230063192300a9⟩⟩,
  ⟨c!"MAP_CERULEAN_CAVE_1F", c!"sCeruleanCave1F_FireRed", some ⟨7, 12,
      0x31310037313100a42e2e00102e2e00993434009a343400893a3a00363a3a00a4373700103737006b3d3d009a3d3d0089⟩, some ⟨2, 5,
      0x1e280063283200642d3700642832006328320063⟩, some ⟨50, 5,
      0x1e280016283200312d3700312832001628320016⟩, some ⟨20, 10,
      0x0505000105050001050f00a7050f0001050f00020f1900a7141e00ae0f19000a0f19006319230063⟩⟩,
  ⟨c!"MAP_CERULEAN_CAVE_2F", c!"sCeruleanCave2F_FireRed", some ⟨7, 12,
      0x313100103131009934340037343400a4373700af373700893a3a00103a3a006b3d3d00363d3d00a4404000af40400089⟩, none, some ⟨50, 5,
      0x232d00162d370031323c00312d3700162d370016⟩, none⟩,
  ⟨c!"MAP_CERULEAN_CAVE_B1F", c!"sCeruleanCaveB1F_FireRed", some ⟨7, 12,
      0x3a3a00af3a3a008937370037373700a43434001034340099434300af4343008940400036404000a43d3d00103d3d006b⟩, some ⟨2, 5,
      0x28320063323c006437410064323c0063323c0063⟩, some ⟨50, 5,
      0x28320016323c003137410031323c0016323c0016⟩, some ⟨20, 10,
      0x0505000105050001050f00a7050f0001050f00020f1900a7141e00ae0f19000a0f1900631923000a⟩⟩,
  ⟨c!"MAP_ROCK_TUNNEL_1F", c!"sRockTunnel1F_FireRed", some ⟨7, 12,
      0x0f0f000d10100016101000b0111100161010000d10100022111100b0111100220f0f00160d0d00960f0f00160f0f0096⟩, none, none, none⟩,
  ⟨c!"MAP_ROCK_TUNNEL_B1F", c!"sRockTunnelB1F_FireRed", some ⟨7, 12,
      0x1010000d11110016111100b0101000160f0f000d11110022101000b00d0d00960f0f00160f0f00960f0f001611110096⟩, none, some ⟨50, 5,
      0x051400160a1400160f1e0016192800311e280031⟩, none⟩,
  ⟨c!"MAP_SEAFOAM_ISLANDS_1F", c!"sSeafoamIslands1F_FireRed", some ⟨7, 12,
      0x1b1b00631d1d00631f1f00631616000d1616000d1818000d1a1a00101c1c0010212100631a1a000d1a1a00631e1e0010⟩, none, none, none⟩,
  ⟨c!"MAP_SEAFOAM_ISLANDS_B1F", c!"sSeafoamIslandsB1F_FireRed", some ⟨7, 12,
      0x1d1d00631f1f00631c1c00b11616000d1616000d1818000d1a1a00101c1c0010212100641a1a000d232300641e1e0010⟩, none, none, none⟩,
  ⟨c!"MAP_SEAFOAM_ISLANDS_B2F", c!"sSeafoamIslandsB2F_FireRed", some ⟨7, 12,
      0x1e1e0063202000631e1e00b1202000b11616000d1818000d1a1a001022220064202000641c1c0010202000641e1e0010⟩, none, none, none⟩,
  ⟨c!"MAP_SEAFOAM_ISLANDS_B3F", c!"sSeafoamIslandsB3F_FireRed", some ⟨7, 12,
      0x1e1e00b1202000b1202000631e1e0063202000641818000d1a1a001022220064202000b21c1c0010222200b21e1e0010⟩, some ⟨2, 5,
      0x192300b1191e005e232800b21e28006323280064⟩, none, some ⟨20, 10,
      0x0505000105050001050f005e050f0001050f00920f19005e141e005e0f19000a0f1900631923000a⟩⟩,
  ⟨c!"MAP_SEAFOAM_ISLANDS_B4F", c!"sSeafoamIslandsB4F_FireRed", some ⟨7, 12,
      0x1e1e00b1202000b120200063222200b1202000641a1a0010222200b222220064242400b21c1c0010242400b21e1e0010⟩, some ⟨2, 5,
      0x192300b1191e005e232800b21e28006323280064⟩, none, some ⟨20, 10,
      0x0505000105050001050f005e050f0001050f00920f19005e141e005e0f19000a0f1900631923000a⟩⟩,
  ⟨c!"MAP_POKEMON_TOWER_3F", c!"sPokemonTower3F_FireRed", some ⟨2, 12,
      0x0f0f00b3101000b3111100b30d0d00b30e0e00b3121200b3131300b30f0f00b4111100b3111100b4111100b3141400b5⟩, none, none, none⟩,
  ⟨c!"MAP_POKEMON_TOWER_4F", c!"sPokemonTower4F_FireRed", some ⟨4, 12,
      0x0f0f00b3101000b3111100b30d0d00b30e0e00b3121200b3141400b50f0f00b4111100b3111100b4111100b3131300b3⟩, none, none, none⟩,
  ⟨c!"MAP_POKEMON_TOWER_5F", c!"sPokemonTower5F_FireRed", some ⟨6, 12,
      0x0f0f00b3101000b3111100b30d0d00b30e0e00b3121200b3141400b50f0f00b4111100b3111100b4111100b3131300b3⟩, none, none, none⟩,
  ⟨c!"MAP_POKEMON_TOWER_6F", c!"sPokemonTower6F_FireRed", some ⟨8, 12,
      0x101000b3111100b3121200b30e0e00b30f0f00b3131300b3151500b5111100b4121200b3131300b4121200b3171700b5⟩, none, none, none⟩,
  ⟨c!"MAP_POKEMON_TOWER_7F", c!"sPokemonTower7F_FireRed", some ⟨10, 12,
      0x101000b3111100b3121200b30f0f00b3131300b3171700b5111100b4131300b4121200b3171700b5121200b3191900b5⟩, none, none, none⟩,
  ⟨c!"MAP_POWER_PLANT", c!"sPowerPlant_FireRed", some ⟨7, 12,
      0x161600341616003519190034191900351616006c1818006c1f1f0037222200371a1a006c202000b61a1a006c232300b6⟩, none, none, none⟩,
  ⟨c!"MAP_MT_EMBER_EXTERIOR", c!"sMtEmberExterior_FireRed", some ⟨21, 12,
      0x1e1e00b7262600b8212100b7202000b92323002221210016242400b7282800b81e1e00b9272700ba1e1e00b92a2a00ba⟩, none, some ⟨50, 5,
      0x051400160a1400160f1e0016192800311e280031⟩, none⟩,
  ⟨c!"MAP_MT_EMBER_SUMMIT_PATH_1F", c!"sMtEmberSummitPath1F_FireRed", some ⟨7, 12,
      0x21210016232300221d1d00161f1f00161f1f002221210022232300162525002225250016272700222525001627270022⟩, none, none, none⟩,
  ⟨c!"MAP_MT_EMBER_SUMMIT_PATH_2F", c!"sMtEmberSummitPath2F_FireRed", some ⟨7, 12,
      0x22220016242400221e1e0016202000162020002222220022262600992626009928280099282800992828009928280099⟩, none, some ⟨50, 5,
      0x051400160a1400160f1e0016192800311e280031⟩, none⟩,
  ⟨c!"MAP_MT_EMBER_SUMMIT_PATH_3F", c!"sMtEmberSummitPath3F_FireRed", some ⟨7, 12,
      0x21210016232300221d1d00161f1f00161f1f002221210022232300162525002225250016272700222525001627270022⟩, none, none, none⟩,
  ⟨c!"MAP_MT_EMBER_RUBY_PATH_1F", c!"sMtEmberRubyPath1F_FireRed", some ⟨7, 12,
      0x2424001626260022202000162222001622220022242400222626001628280099282800162a2a0099282800162a2a0099⟩, none, some ⟨50, 5,
      0x192300161e2d0031233200311e2800161e280016⟩, none⟩,
  ⟨c!"MAP_MT_EMBER_RUBY_PATH_B1F", c!"sMtEmberRubyPathB1F_FireRed", some ⟨7, 12,
      0x26260016242400162222001628280016181800261a1a00262a2a00161c1c00262a2a00161e1e00262a2a00161e1e0026⟩, none, some ⟨50, 5,
      0x192300161e2d0031233200311e2800161e280016⟩, none⟩,
  ⟨c!"MAP_MT_EMBER_RUBY_PATH_B2F", c!"sMtEmberRubyPathB2F_FireRed", some ⟨7, 12,
      0x282800161a1a00262a2a0016181800261c1c00261e1e00262c2c0016202000262c2c0016161600262c2c001616160026⟩, none, some ⟨50, 5,
      0x192300161e2d0031233200311e2800161e280016⟩, none⟩,
  ⟨c!"MAP_MT_EMBER_RUBY_PATH_B3F", c!"sMtEmberRubyPathB3F_FireRed", some ⟨7, 12,
      0x1a1a00261c1c00261e1e0026202000261818002616160026141400262222002624240026121200262424002612120026⟩, none, some ⟨50, 5,
      0x0f19002619230026282d00bb232d00bb192300bb⟩, none⟩,
  ⟨c!"MAP_MT_EMBER_RUBY_PATH_B1F_STAIRS", c!"sMtEmberRubyPathB1FStairs_FireRed", some ⟨7, 12,
      0x282800161a1a00262a2a0016181800261c1c00261e1e00262c2c0016202000262c2c0016161600262c2c001616160026⟩, none, some ⟨50, 5,
      0x192300161e2d0031233200311e2800161e280016⟩, none⟩,
  ⟨c!"MAP_MT_EMBER_RUBY_PATH_B2F_STAIRS", c!"sMtEmberRubyPathB2FStairs_FireRed", some ⟨7, 12,
      0x26260016242400162222001628280016181800261a1a00262a2a00161c1c00262a2a00161e1e00262a2a00161e1e0026⟩, none, some ⟨50, 5,
      0x192300161e2d0031233200311e2800161e280016⟩, none⟩,
  ⟨c!"MAP_THREE_ISLAND_BERRY_FOREST", c!"sThreeIslandBerryForest_FireRed", some ⟨21, 12,
      0x252500bc2323005b202000bd1e1e0043222200a1222200be232300a01f1f0063252500ac252500bf282800ac282800bf⟩, some ⟨2, 5,
      0x0514006314230063232800632328006423280064⟩, none, some ⟨20, 10,
      0x0505000105050001050f0002050f0001050f00a70f190002141e00650f19000a0f19006319230063⟩⟩,
  ⟨c!"MAP_FOUR_ISLAND_ICEFALL_CAVE_ENTRANCE", c!"sFourIslandIcefallCaveEntrance_FireRed", some ⟨7, 12,
      0x2b2b00b12d2d00102d2d00b12f2f00b12828000d313100b2333300b22929006330300010353500b230300010353500b2⟩, some ⟨2, 5,
      0x052300b105230063232800b2050f007f050f007f⟩, none, some ⟨20, 10,
      0x0505000105050001050f00a7050f0001050f00020f1900a7141e00ae0f19000a0f19006319230063⟩⟩,
  ⟨c!"MAP_FOUR_ISLAND_ICEFALL_CAVE_1F", c!"sFourIslandIcefallCave1F_FireRed", some ⟨7, 12,
      0x191900c02d2d00102d2d00b11b1b00c02828000d1d1d00c01e1e00c11f1f00c030300010171700c030300010171700c0⟩, none, none, none⟩,
  ⟨c!"MAP_FOUR_ISLAND_ICEFALL_CAVE_B1F", c!"sFourIslandIcefallCaveB1F_FireRed", some ⟨7, 12,
      0x191900c02d2d00102d2d00b11b1b00c02828000d1d1d00c01e1e00c11f1f00c030300010171700c030300010171700c0⟩, none, none, none⟩,
  ⟨c!"MAP_FOUR_ISLAND_ICEFALL_CAVE_BACK", c!"sFourIslandIcefallCaveBack_FireRed", some ⟨7, 12,
      0x2b2b00b12d2d00102d2d00b12f2f00b12828000d313100b2333300b22929006330300010353500b230300010353500b2⟩, some ⟨2, 5,
      0x0514000414230004232d0004232d00381e2d00c2⟩, none, some ⟨20, 10,
      0x0505000105050001050f005e050f0001050f005e0f19005e0f1900930f19000a192300c319230063⟩⟩,
  ⟨c!"MAP_SIX_ISLAND_PATTERN_BUSH", c!"sSixIslandPatternBush_FireRed", some ⟨21, 12,
      0x0909007a0909008f0e0e007a0606008c0606008d0f0f00690909008e1414006909090084191900690e0e00841e1e0069⟩, none, none, none⟩,
  ⟨c!"MAP_FIVE_ISLAND_LOST_CAVE_ROOM1", c!"sFiveIslandLostCaveRoom1_FireRed", some ⟨1, 12,
      0x282800b32525000d2c2c00b52e2e00b5292900102b2b0010262600b3303000b5323200b5161600c4343400b5161600c4⟩, none, none, none⟩,
  ⟨c!"MAP_FIVE_ISLAND_LOST_CAVE_ROOM2", c!"sFiveIslandLostCaveRoom2_FireRed", some ⟨2, 12,
      0x282800b32525000d2c2c00b52e2e00b5292900102b2b0010262600b3303000b5323200b5161600c4343400b5161600c4⟩, none, none, none⟩,
  ⟨c!"MAP_FIVE_ISLAND_LOST_CAVE_ROOM3", c!"sFiveIslandLostCaveRoom3_FireRed", some ⟨3, 12,
      0x282800b32525000d2c2c00b52e2e00b5292900102b2b0010262600b3303000b5323200b5161600c4343400b5161600c4⟩, none, none, none⟩,
  ⟨c!"MAP_FIVE_ISLAND_LOST_CAVE_ROOM4", c!"sFiveIslandLostCaveRoom4_FireRed", some ⟨4, 12,
      0x282800b32525000d2c2c00b52e2e00b5292900102b2b0010262600b3303000b5323200b5161600c4343400b5161600c4⟩, none, none, none⟩,
  ⟨c!"MAP_FIVE_ISLAND_LOST_CAVE_ROOM5", c!"sFiveIslandLostCaveRoom5_FireRed", some ⟨5, 12,
      0x282800b32525000d2c2c00b52e2e00b5292900102b2b0010262600b3303000b5323200b5161600c4343400b5161600c4⟩, none, none, none⟩,
  ⟨c!"MAP_FIVE_ISLAND_LOST_CAVE_ROOM6", c!"sFiveIslandLostCaveRoom6_FireRed", some ⟨6, 12,
      0x282800b32525000d2c2c00b52e2e00b5292900102b2b0010262600b3303000b5323200b5161600c4343400b5161600c4⟩, none, none, none⟩,
  ⟨c!"MAP_FIVE_ISLAND_LOST_CAVE_ROOM7", c!"sFiveIslandLostCaveRoom7_FireRed", some ⟨7, 12,
      0x282800b32525000d2c2c00b52e2e00b5292900102b2b0010262600b3303000b5323200b5161600c4343400b5161600c4⟩, none, none, none⟩,
  ⟨c!"MAP_FIVE_ISLAND_LOST_CAVE_ROOM8", c!"sFiveIslandLostCaveRoom8_FireRed", some ⟨8, 12,
      0x282800b32525000d2c2c00b52e2e00b5292900102b2b0010262600b3303000b5323200b5161600c4343400b5161600c4⟩, none, none, none⟩,
  ⟨c!"MAP_FIVE_ISLAND_LOST_CAVE_ROOM9", c!"sFiveIslandLostCaveRoom9_FireRed", some ⟨9, 12,
      0x282800b32525000d2c2c00b52e2e00b5292900102b2b0010262600b3303000b5323200b5161600c4343400b5161600c4⟩, none, none, none⟩,
  ⟨c!"MAP_FIVE_ISLAND_LOST_CAVE_ROOM10", c!"sFiveIslandLostCaveRoom10_FireRed", some ⟨10, 12,
      0x282800b32525000d2c2c00b52e2e00b5292900102b2b0010262600b3303000b5323200b5161600c4343400b5161600c4⟩, none, none, none⟩,
  ⟨c!"MAP_FIVE_ISLAND_LOST_CAVE_ROOM11", c!"sFiveIslandLostCaveRoom11_FireRed", some ⟨5, 12,
      0x282800b32525000d2c2c00b52e2e00b5292900100f0f00c4141400c4303000b5323200b5161600c4343400b5161600c4⟩, none, none, none⟩,
  ⟨c!"MAP_FIVE_ISLAND_LOST_CAVE_ROOM12", c!"sFiveIslandLostCaveRoom12_FireRed", some ⟨5, 12,
      0x282800b32525000d2c2c00b52e2e00b5292900100f0f00c4141400c4303000b5323200b5161600c4343400b5161600c4⟩, none, none, none⟩,
  ⟨c!"MAP_FIVE_ISLAND_LOST_CAVE_ROOM13", c!"sFiveIslandLostCaveRoom13_FireRed", some ⟨5, 12,
      0x282800b32525000d2c2c00b52e2e00b5292900100f0f00c4141400c4303000b5323200b5161600c4343400b5161600c4⟩, none, none, none⟩,
  ⟨c!"MAP_FIVE_ISLAND_LOST_CAVE_ROOM14", c!"sFiveIslandLostCaveRoom14_FireRed", some ⟨5, 12,
      0x282800b32525000d2c2c00b52e2e00b5292900100f0f00c4141400c4303000b5323200b5161600c4343400b5161600c4⟩, none, none, none⟩,
  ⟨c!"MAP_ONE_ISLAND_KINDLE_ROAD", c!"sOneIslandKindleRoad_FireRed", some ⟨21, 12,
      0x202000b9222200b7242400b81f1f00b71f1f00161f1f00c51e1e00b922220063252500ba252500c6282800ba282800c6⟩, some ⟨2, 5,
      0x0514000414230004232800042328003823280038⟩, some ⟨25, 5,
      0x051400160a1400160f1e0016192800311e280031⟩, some ⟨20, 10,
      0x0505000105050001050f005e050f0001050f005e0f19005e0f19005e0f19000a192300c319230063⟩⟩,
  ⟨c!"MAP_ONE_ISLAND_TREASURE_BEACH", c!"sOneIslandTreasureBeach_FireRed", some ⟨21, 12,
      0x202000b9212100c71f1f00b9232300c7242400b81f1f00c5262600b81f1f0063282800b8252500c6282800b8282800c6⟩, some ⟨2, 5,
      0x0514000414230004232800042328003823280038⟩, none, some ⟨20, 10,
      0x0505000105050001050f005e050f0001050f005e0f19005e0f19005e0f19000a192300c319230063⟩⟩,
  ⟨c!"MAP_TWO_ISLAND_CAPE_BRINK", c!"sTwoIslandCapeBrink_FireRed", some ⟨21, 12,
      0x1f1f00b91e1e0043202000432424005b242400b81f1f00c52626005b1f1f006325250064252500c628280064282800c6⟩, some ⟨2, 5,
      0x0514006314230063232800632328006423280064⟩, none, some ⟨20, 10,
      0x0505000105050001050f00a7050f0001050f00020f1900a7141e00ae0f19000a0f19006319230063⟩⟩,
  ⟨c!"MAP_THREE_ISLAND_BOND_BRIDGE", c!"sThreeIslandBondBridge_FireRed", some ⟨21, 12,
      0x202000bd1f1f00431d1d00bd2424005b222200bc1f1f00c5222200a11f1f0063252500bc252500c6282800bc282800c6⟩, some ⟨2, 5,
      0x0514000414230004232800042328003823280038⟩, none, some ⟨20, 10,
      0x0505000105050001050f005e050f0001050f005e0f19005e0f19005e0f19000a192300c319230063⟩⟩,
  ⟨c!"MAP_THREE_ISLAND_PORT", c!"sThreeIslandPort_FireRed", some ⟨1, 12,
      0x0f0f00c80f0f00c80a0a00c80a0a00c8141400c8141400c8191900c81e1e00c8191900c81e1e00c8050500c8232300c8⟩, none, none, none⟩,
  ⟨c!"MAP_FIVE_ISLAND_RESORT_GORGEOUS", c!"sFiveIslandResortGorgeous_FireRed", none, some ⟨2, 5,
      0x05230004050f00c9232800042328003823280038⟩, none, some ⟨20, 10,
      0x0505000105050001050f005e050f0001050f005e0f19005e0f1900ca0f19000a192300c319230063⟩⟩,
  ⟨c!"MAP_FIVE_ISLAND_WATER_LABYRINTH", c!"sFiveIslandWaterLabyrinth_FireRed", none, some ⟨2, 5,
      0x05140004050f00c9232800042328003823280038⟩, none, some ⟨20, 10,
      0x0505000105050001050f005e050f0001050f005e0f19005e0f1900ca0f19000a192300c319230063⟩⟩,
  ⟨c!"MAP_FIVE_ISLAND_MEADOW", c!"sFiveIslandMeadow_FireRed", some ⟨21, 12,
      0x2c2c00bd0a0a00cb303000bc0a0a00c90f0f00cb292900c50f0f00c929290063323200bc2f2f00c6323200bc323200c6⟩, some ⟨2, 5,
      0x05230004050f00c9232800042328003823280038⟩, none, some ⟨20, 10,
      0x0505000105050001050f005e050f0001050f005e0f19005e0f1900ca0f19000a192300c319230063⟩⟩,
  ⟨c!"MAP_FIVE_ISLAND_MEMORIAL_PILLAR", c!"sFiveIslandMemorialPillar_FireRed", some ⟨21, 12,
      0x0a0a00c90c0c00c9080800c90e0e00c90a0a00c90c0c00c9101000c9060600c9080800c90e0e00c9080800c90e0e00c9⟩, some ⟨2, 5,
      0x05230004050f00c9232800042328003823280038⟩, none, some ⟨20, 10,
      0x0505000105050001050f005e050f0001050f005e0f19005e0f1900ca0f19000a192300c319230063⟩⟩,
  ⟨c!"MAP_SIX_ISLAND_OUTCAST_ISLAND", c!"sSixIslandOutcastIsland_FireRed", none, some ⟨2, 5,
      0x0514000414230004232800042328003823280038⟩, none, some ⟨20, 10,
      0x0505000105050001050f005e050f0001050f005e0f19005e0f1900ca0f19000a192300c319230063⟩⟩,
  ⟨c!"MAP_SIX_ISLAND_GREEN_PATH", c!"sSixIslandGreenPath_FireRed", none, some ⟨2, 5,
      0x0514000414230004232800042328003823280038⟩, none, some ⟨20, 10,
      0x0505000105050001050f005e050f0001050f005e0f19005e0f1900ca0f19000a192300c319230063⟩⟩,
  ⟨c!"MAP_SIX_ISLAND_WATER_PATH", c!"sSixIslandWaterPath_FireRed", some ⟨21, 12,
      0x2c2c00b90a0a00cb2c2c0043303000b80f0f00cb292900c53030005b29290063323200b82f2f00c6323200b8323200c6⟩, some ⟨2, 5,
      0x0514000414230004232800042328003823280038⟩, none, some ⟨20, 10,
      0x0505000105050001050f005e050f0001050f005e0f19005e0f1900ca0f19000a192300c319230063⟩⟩,
  ⟨c!"MAP_SIX_ISLAND_RUIN_VALLEY", c!"sSixIslandRuinValley_FireRed", some ⟨21, 12,
      0x0f0f00672c2c00b9121200cc0f0f007f313100b82b2b00c51919006b2929006314140067313100c614140067343400c6⟩, some ⟨2, 5,
      0x0514007f0a14007f0f19007f1419007f1419007f⟩, none, some ⟨20, 10,
      0x0505000105050001050f00a7050f0001050f00020f1900a7141e00ae0f19000a0f19006319230063⟩⟩,
  ⟨c!"MAP_SEVEN_ISLAND_TRAINER_TOWER", c!"sSevenIslandTrainerTower_FireRed", none, some ⟨2, 5,
      0x0514000414230004232800042328003823280038⟩, none, some ⟨20, 10,
      0x0505000105050001050f005e050f0001050f005e0f19005e0f1900ca0f19000a192300c319230063⟩⟩,
  ⟨c!"MAP_SEVEN_ISLAND_SEVAULT_CANYON_ENTRANCE", c!"sSevenIslandSevaultCanyonEntrance_FireRed", some ⟨21, 12,
      0x2c2c00b90a0a00cb0a0a0066303000b80f0f00cb292900c5323200b8292900630f0f00662f2f00c60f0f0066323200c6⟩, none, none, none⟩,
  ⟨c!"MAP_SEVEN_ISLAND_SEVAULT_CANYON", c!"sSevenIslandSevaultCanyon_FireRed", some ⟨21, 12,
      0x2e2e00160f0f00662e2e00b4323200b8343400982b2b00c5363600961e1e004a0f0f00cd313100c6141400cd343400c6⟩, none, some ⟨25, 5,
      0x192300161e2d0031233200311e2800161e280016⟩, none⟩,
  ⟨c!"MAP_SEVEN_ISLAND_TANOBY_RUINS", c!"sSevenIslandTanobyRuins_FireRed", none, some ⟨2, 5,
      0x0514000414230004232800042328003823280038⟩, none, some ⟨20, 10,
      0x0505000105050001050f005e050f0001050f005e0f19005e0f1900ca0f19000a192300c319230063⟩⟩,
  ⟨c!"MAP_ROUTE1", c!"sRoute1_FireRed", some ⟨21, 12,
      0x030300bd0303009d030300bd0303009d020200bd0202009d030300bd0303009d040400bd0404009d050500bd0404009d⟩, none, none, none⟩,
  ⟨c!"MAP_ROUTE2", c!"sRoute2_FireRed", some ⟨21, 12,
      0x0303009d030300bd0404009d040400bd0202009d020200bd0505009d050500bd0404008c0404008d0505008c0505008d⟩, none, none, none⟩,
  ⟨c!"MAP_ROUTE3", c!"sRoute3_FireRed", some ⟨21, 12,
      0x060600b9060600bd070700b9070700b00606009f070700bd080800b90303004f0707009f0505004f060600aa0707004f⟩, none, none, none⟩,
  ⟨c!"MAP_ROUTE4", c!"sRoute4_FireRed", some ⟨21, 12,
      0x0a0a00b90a0a009d060600ce0a0a00ce080800b90808009d0c0c00b90c0c009d0a0a00b0080800ce0c0c00b00c0c00ce⟩, some ⟨2, 5,
      0x050a00040a140004141e00041e23000423280004⟩, none, some ⟨20, 10,
      0x0505000105050001050f005e050f0001050f00920f19005e0f19005e0f19000a1923005e19230063⟩⟩,
  ⟨c!"MAP_ROUTE5", c!"sRoute5_FireRed", some ⟨21, 12,
      0x0a0a00c50d0d00bd0d0d00430c0c00c50f0f00430f0f00bd10100043101000bd0f0f00bd0e0e00c50f0f00bd101000c5⟩, none, none, none⟩,
  ⟨c!"MAP_ROUTE6", c!"sRoute6_FireRed", some ⟨21, 12,
      0x0a0a00c50d0d00bd0d0d00430c0c00c50f0f00430f0f00bd10100043101000bd0f0f00bd0e0e00c50f0f00bd101000c5⟩, some ⟨2, 5,
      0x1419006314190063191e00631e23006323280063⟩, none, some ⟨20, 10,
      0x0505000105050001050f00a7050f0001050f00020f1900a7141e00ae0f19000a0f19006319230063⟩⟩,
  ⟨c!"MAP_ROUTE7", c!"sRoute7_FireRed", some ⟨21, 12,
      0x131300bd111100c513130043121200c5161600bd161600431212009c1414009c111100c5131300c5111100c5141400c5⟩, none, none, none⟩,
  ⟨c!"MAP_ROUTE8", c!"sRoute8_FireRed", some ⟨21, 12,
      0x121200bd121200c51010009c141400bd141400c5111100ce1111009c131300ce111100ce0f0f009c111100ce1212009c⟩, none, none, none⟩,
  ⟨c!"MAP_ROUTE9", c!"sRoute9_FireRed", some ⟨21, 12,
      0x101000b91010009d0b0b00ce0f0f00ce0d0d00b90e0e009d111100b91111009d0e0e009d0d0d00ce0e0e009d111100ce⟩, none, none, none⟩,
  ⟨c!"MAP_ROUTE10", c!"sRoute10_FireRed", some ⟨21, 12,
      0x101000b9101000340b0b00ce0f0f00ce0d0d00b90e0e0034111100b9111100340e0e00340d0d00ce0e0e0034111100ce⟩, some ⟨2, 5,
      0x050a00040a140004141e00041e23000423280004⟩, none, some ⟨20, 10,
      0x0505000105050001050f005e050f0001050f00920f19005e0f19005e0f19000a1923005e19230063⟩⟩,
  ⟨c!"MAP_ROUTE11", c!"sRoute11_FireRed", some ⟨21, 12,
      0x0e0e00ce0f0f00b90c0c00ce0d0d00b90b0b00be0d0d00be0f0f00ce111100b90c0c00ce0f0f00be0c0c00ce0f0f00be⟩, some ⟨2, 5,
      0x050a00040a140004141e00041e23000423280004⟩, none, some ⟨20, 10,
      0x0505000105050001050f005e050f0001050f00920f19005e0f19005e0f19000a1923005e19230063⟩⟩,
  ⟨c!"MAP_ROUTE12", c!"sRoute12_FireRed", some ⟨21, 12,
      0x18180043181800a116160043171700bd191900bd1a1a00a11a1a00431b1b00bd171700bd1c1c005b171700bd1e1e005b⟩, some ⟨2, 5,
      0x050a00040a140004141e00041e23000423280004⟩, none, some ⟨60, 10,
      0x0505000105050001050f005e050f0001050f00920f19005e0f19005e0f19000a1923005e19230063⟩⟩,
  ⟨c!"MAP_ROUTE13", c!"sRoute13_FireRed", some ⟨21, 12,
      0x18180043181800a1161600431b1b00bd191900bd1a1a00a11a1a0043191900891d1d00bc1c1c005b1d1d00bc1e1e005b⟩, some ⟨2, 5,
      0x050a00040a140004141e00041e23000423280004⟩, none, some ⟨20, 10,
      0x0505000105050001050f005e050f0001050f00920f19005e0f19005e0f19000a1923005e19230063⟩⟩,
  ⟨c!"MAP_ROUTE14", c!"sRoute14_FireRed", some ⟨21, 12,
      0x18180043181800a116160043171700891b1b00bd1a1a00a11a1a00431e1e005b171700891d1d00bc171700891d1d00bc⟩, none, none, none⟩,
  ⟨c!"MAP_ROUTE15", c!"sRoute15_FireRed", some ⟨21, 12,
      0x18180043181800a1161600431b1b00bd191900bd1a1a00a11a1a0043191900891d1d00bc1c1c005b1d1d00bc1e1e005b⟩, none, none, none⟩,
  ⟨c!"MAP_ROUTE16", c!"sRoute16_FireRed", some ⟨21, 12,
      0x141400b9121200601212009d1414009d161600b9141400601616009d161600601212009d1717009b1212009d1919009b⟩, none, none, none⟩,
  ⟨c!"MAP_ROUTE17", c!"sRoute17_FireRed", some ⟨21, 12,
      0x141400b918180060161600b91a1a00601919009b1b1b009b1c1c00601d1d009b1616009d191900b81616009d1b1b00b8⟩, none, none, none⟩,
  ⟨c!"MAP_ROUTE18", c!"sRoute18_FireRed", some ⟨21, 12,
      0x141400b918180060161600b91a1a00601919009b191900b81c1c00601d1d009b1616009d1b1b00b81616009d1d1d00b8⟩, none, none, none⟩,
  ⟨c!"MAP_ROUTE19", c!"sRoute19_FireRed", none, some ⟨2, 5,
      0x050a00040a140004141e00041e23000423280004⟩, none, some ⟨20, 10,
      0x0505000105050001050f005e050f0001050f00920f19005e0f19005e0f19000a192300c319230063⟩⟩,
  ⟨c!"MAP_ROUTE20", c!"sRoute20_FireRed", none, some ⟨2, 5,
      0x050a00040a140004141e00041e23000423280004⟩, none, some ⟨20, 10,
      0x0505000105050001050f005e050f0001050f00920f19005e0f19005e0f19000a192300c319230063⟩⟩,
  ⟨c!"MAP_ROUTE21_NORTH", c!"sRoute21North_FireRed", some ⟨14, 12,
      0x161600c7171700c7181800c7151500c7191900c7141400c7131300c71a1a00c7121200c71b1b00c7111100c71c1c00c7⟩, some ⟨2, 5,
      0x050a00040a140004141e00041e23000423280004⟩, none, some ⟨20, 10,
      0x0505000105050001050f005e050f0001050f00920f19005e0f19005e0f19000a192300c319230063⟩⟩,
  ⟨c!"MAP_ROUTE21_SOUTH", c!"sRoute21South_FireRed", some ⟨14, 12,
      0x161600c7171700c7181800c7151500c7191900c7141400c7131300c71a1a00c7121200c71b1b00c7111100c71c1c00c7⟩, some ⟨2, 5,
      0x050a00040a140004141e00041e23000423280004⟩, none, some ⟨20, 10,
      0x0505000105050001050f005e050f0001050f00920f19005e0f19005e0f19000a192300c319230063⟩⟩,
  ⟨c!"MAP_ROUTE22", c!"sRoute22_FireRed", some ⟨21, 12,
      0x0303009d030300b00404009d040400b00202009d020200b0030300b9050500b90505009d050500b00505009d050500b0⟩, some ⟨2, 5,
      0x1419006314190063191e00631e23006323280063⟩, none, some ⟨20, 10,
      0x0505000105050001050f00a7050f0001050f00020f1900a7141e00ae0f19000a0f19006319230063⟩⟩,
  ⟨c!"MAP_ROUTE23", c!"sRoute23_FireRed", some ⟨21, 12,
      0x202000b0282800b8222200b0222200b9202000ce222200ce2a2a009a2c2c0097202000b92a2a00b8202000b92c2c00b8⟩, some ⟨2, 5,
      0x1419006314190063191e00631e23006323280063⟩, none, some ⟨20, 10,
      0x0505000105050001050f00a7050f0001050f00020f1900a7141e00ae0f19000a0f19006319230063⟩⟩,
  ⟨c!"MAP_ROUTE24", c!"sRoute24_FireRed", some ⟨21, 12,
      0x0707008d0707008c0b0b00bd0c0c00430d0d00430a0a00150d0d00bd0e0e00430808008f080800150808008e0c0c0015⟩, some ⟨2, 5,
      0x050a00040a140004141e00041e23000423280004⟩, none, some ⟨20, 10,
      0x0505000105050001050f005e050f0001050f00920f19005e0f19005e0f19000a1923005e19230063⟩⟩,
  ⟨c!"MAP_ROUTE25", c!"sRoute25_FireRed", some ⟨21, 12,
      0x0808008d0808008c0d0d00bd0e0e00430d0d00430b0b00150b0b00bd0c0c00430909008f090900150909008e0d0d0015⟩, some ⟨2, 5,
      0x1419006314190063191e00631e23006323280063⟩, none, some ⟨20, 10,
      0x0505000105050001050f00a7050f0001050f00020f1900a7141e00ae0f19000a0f19006319230063⟩⟩,
  ⟨c!"MAP_PALLET_TOWN", c!"sPalletTown_FireRed", none, some ⟨1, 5,
      0x050a00040a140004141e00041e23000423280004⟩, none, some ⟨10, 10,
      0x050a0001050a0001050f005e050f0001050f00920f19005e0f1900930f19000a192300c319230063⟩⟩,
  ⟨c!"MAP_VIRIDIAN_CITY", c!"sViridianCity_FireRed", none, some ⟨1, 5,
      0x1419006314190063191e00631e23006323280063⟩, none, some ⟨10, 10,
      0x0505000105050001050f00a7050f0001050f00020f1900a7141e00ae0f19000a0f19006319230063⟩⟩,
  ⟨c!"MAP_CERULEAN_CITY", c!"sCeruleanCity_FireRed", none, some ⟨1, 5,
      0x050a00040a140004141e00041e23000423280004⟩, none, some ⟨10, 10,
      0x0505000105050001050f005e050f0001050f00920f19005e0f19005e0f19000a1923005e19230063⟩⟩,
  ⟨c!"MAP_VERMILION_CITY", c!"sVermilionCity_FireRed", none, some ⟨1, 5,
      0x050a00040a140004141e00041e23000423280004⟩, none, some ⟨10, 10,
      0x0505000105050001050f005e050f0001050f00920f19005e0f1900930f19000a1923005e19230063⟩⟩,
  ⟨c!"MAP_CELADON_CITY", c!"sCeladonCity_FireRed", none, some ⟨1, 5,
      0x050a00630a140063141e00631e2800631e280024⟩, none, some ⟨10, 10,
      0x0505000105050001050f0001050f0001050f00010f1900010f1900010f190001192300011e280027⟩⟩,
  ⟨c!"MAP_FUCHSIA_CITY", c!"sFuchsiaCity_FireRed", none, some ⟨1, 5,
      0x1419006314190063191e00631e23006323280063⟩, none, some ⟨10, 10,
      0x0505000105050001050f0002050f0001050f00a70f190002141e00650f19000a0f19006319230063⟩⟩,
  ⟨c!"MAP_CINNABAR_ISLAND", c!"sCinnabarIsland_FireRed", none, some ⟨1, 5,
      0x050a00040a140004141e00041e23000423280004⟩, none, some ⟨10, 10,
      0x0505000105050001050f005e050f0001050f00920f19005e0f1900930f19000a192300c319230063⟩⟩,
  ⟨c!"MAP_ONE_ISLAND", c!"sOneIsland_FireRed", none, some ⟨1, 5,
      0x0514000414230004232800042328003823280038⟩, none, some ⟨10, 10,
      0x0505000105050001050f005e050f0001050f005e0f19005e0f1900930f19000a192300c319230063⟩⟩,
  ⟨c!"MAP_FOUR_ISLAND", c!"sFourIsland_FireRed", none, some ⟨2, 5,
      0x050f007f052300630f19007f0f19007f0f19007f⟩, none, some ⟨20, 10,
      0x0505000105050001050f00a7050f0001050f00020f1900a7141e00ae0f19000a0f19006319230063⟩⟩,
  ⟨c!"MAP_FIVE_ISLAND", c!"sFiveIsland_FireRed", none, some ⟨1, 5,
      0x05230004050f00c9232800042328003823280038⟩, none, some ⟨10, 10,
      0x0505000105050001050f005e050f0001050f005e0f19005e0f1900930f19000a192300c319230063⟩⟩,
  ⟨c!"MAP_SIX_ISLAND_ALTERING_CAVE", c!"sSixIslandAlteringCave_FireRed", some ⟨5, 12,
      0x0a0a000d0c0c000d0808000d0e0e000d0a0a000d0c0c000d1010000d0606000d0808000d0e0e000d0808000d0e0e000d⟩, none, none, none⟩,
  ⟨c!"MAP_SIX_ISLAND_ALTERING_CAVE", c!"sSixIslandAlteringCave_2_FireRed", some ⟨5, 12,
      0x0707007809090078050500780b0b007807070078090900780d0d007803030078050500780b0b0078050500780b0b0078⟩, none, none, none⟩,
  ⟨c!"MAP_SIX_ISLAND_ALTERING_CAVE", c!"sSixIslandAlteringCave_3_FireRed", some ⟨5, 12,
      0x1717008519190085161600851b1b008517170085191900851d1d008513130085151500851b1b0085151500851b1b0085⟩, none, none, none⟩,
  ⟨c!"MAP_SIX_ISLAND_ALTERING_CAVE", c!"sSixIslandAlteringCave_4_FireRed", some ⟨5, 12,
      0x10100086121200860e0e0086141400861010008612120086161600860c0c00860e0e0086141400860e0e008614140086⟩, none, none, none⟩,
  ⟨c!"MAP_SIX_ISLAND_ALTERING_CAVE", c!"sSixIslandAlteringCave_5_FireRed", some ⟨5, 12,
      0x1616008318180083141400831a1a008316160083181800831c1c008312120083141400831a1a0083141400831a1a0083⟩, none, none, none⟩,
  ⟨c!"MAP_SIX_ISLAND_ALTERING_CAVE", c!"sSixIslandAlteringCave_6_FireRed", some ⟨5, 12,
      0x1616007918180079141400791a1a007916160079181800791c1c007912120079141400791a1a0079141400791a1a0079⟩, none, none, none⟩,
  ⟨c!"MAP_SIX_ISLAND_ALTERING_CAVE", c!"sSixIslandAlteringCave_7_FireRed", some ⟨5, 12,
      0x1616008818180088141400881a1a008816160088181800881c1c008812120088141400881a1a0088141400881a1a0088⟩, none, none, none⟩,
  ⟨c!"MAP_SIX_ISLAND_ALTERING_CAVE", c!"sSixIslandAlteringCave_8_FireRed", some ⟨5, 12,
      0x1616007d1818007d1414007d1a1a007d1616007d1818007d1c1c007d1212007d1414007d1a1a007d1414007d1a1a007d⟩, none, none, none⟩,
  ⟨c!"MAP_SIX_ISLAND_ALTERING_CAVE", c!"sSixIslandAlteringCave_9_FireRed", some ⟨5, 12,
      0x1616008a1818008a1414008a1a1a008a1616008a1818008a1c1c008a1212008a1414008a1a1a008a1414008a1a1a008a⟩, none, none, none⟩,
  ⟨c!"MAP_SEVEN_ISLAND_TANOBY_RUINS_MONEAN_CHAMBER", c!"sSevenIslandTanobyRuinsMoneanChamber_LeafGreen", some ⟨7, 12,
      0x1919008b1919008b1919008b1919008b1919008b1919008b1919008b1919008b1919008b1919008b1919008b1919008b⟩, none, none, none⟩,
  ⟨c!"MAP_SEVEN_ISLAND_TANOBY_RUINS_LIPTOO_CHAMBER", c!"sSevenIslandTanobyRuinsLiptooChamber_LeafGreen", some ⟨7, 12,
      0x1919008b1919008b1919008b1919008b1919008b1919008b1919008b1919008b1919008b1919008b1919008b1919008b⟩, none, none, none⟩,
  ⟨c!"MAP_SEVEN_ISLAND_TANOBY_RUINS_WEEPTH_CHAMBER", c!"sSevenIslandTanobyRuinsWeepthChamber_LeafGreen", some ⟨7, 12,
      0x1919008b1919008b1919008b1919008b1919008b1919008b1919008b1919008b1919008b1919008b1919008b1919008b⟩, none, none, none⟩,
  ⟨c!"MAP_SEVEN_ISLAND_TANOBY_RUINS_DILFORD_CHAMBER", c!"sSevenIslandTanobyRuinsDilfordChamber_LeafGreen", some ⟨7, 12,
      0x1919008b1919008b1919008b1919008b1919008b1919008b1919008b1919008b1919008b1919008b1919008b1919008b⟩, none, none, none⟩,
  ⟨c!"MAP_SEVEN_ISLAND_TANOBY_RUINS_SCUFIB_CHAMBER", c!"sSevenIslandTanobyRuinsScufibChamber_LeafGreen", some ⟨7, 12,
      0x1919008b1919008b1919008b1919008b1919008b1919008b1919008b1919008b1919008b1919008b1919008b1919008b⟩, none, none, none⟩,
  ⟨c!"MAP_SEVEN_ISLAND_TANOBY_RUINS_RIXY_CHAMBER", c!"sSevenIslandTanobyRuinsRixyChamber_LeafGreen", some ⟨7, 12,
      0x1919008b1919008b1919008b1919008b1919008b1919008b1919008b1919008b1919008b1919008b1919008b1919008b⟩, none, none, none⟩,
  ⟨c!"MAP_SEVEN_ISLAND_TANOBY_RUINS_VIAPOIS_CHAMBER", c!"sSevenIslandTanobyRuinsViapoisChamber_LeafGreen", some ⟨7, 12,
      0x1919008b1919008b1919008b1919008b1919008b1919008b1919008b1919008b1919008b1919008b1919008b1919008b⟩, none, none, none⟩,
  ⟨c!"MAP_VIRIDIAN_FOREST", c!"sViridianForest_LeafGreen", some ⟨14, 12,
      0x0404008c0404008d0505008c0505008d0303008c0303008d0505008f0505008e0404008e0303006c0606008e0505006c⟩, none, none, none⟩,
  ⟨c!"MAP_MT_MOON_1F", c!"sMtMoon1F_LeafGreen", some ⟨7, 12,
      0x0707000d0808000d070700160909000d0a0a000d0808001609090016080800900707000d0707000d0707000d08080091⟩, none, none, none⟩,
  ⟨c!"MAP_MT_MOON_B1F", c!"sMtMoonB1F_LeafGreen", some ⟨5, 12,
      0x07070090080800900505009006060090090900900a0a009007070090080800900505009006060090090900900a0a0090⟩, none, none, none⟩,
  ⟨c!"MAP_MT_MOON_B2F", c!"sMtMoonB2F_LeafGreen", some ⟨7, 12,
      0x0808000d090900160909000d0a0a000d0a0a00160a0a00900c0c00900a0a00910b0b000d0b0b000d0b0b000d0c0c0091⟩, none, none, none⟩,
  ⟨c!"MAP_SSANNE_EXTERIOR", c!"sSSAnneExterior_LeafGreen", none, some ⟨1, 5,
      0x050a00040a140004141e00041e23000423280004⟩, none, some ⟨10, 10,
      0x0505000105050001050f0092050f0001050f005e0f1900920f1900080f19000a19230092192300cf⟩⟩,
  ⟨c!"MAP_DIGLETTS_CAVE_B1F", c!"sDiglettsCaveB1F_LeafGreen", some ⟨5, 12,
      0x1212009413130094111100940f0f009410100094141400941515009416160094111100941d1d0095111100941f1f0095⟩, none, none, none⟩,
  ⟨c!"MAP_VICTORY_ROAD_1F", c!"sVictoryRoad1F_LeafGreen", some ⟨7, 12,
      0x2020002220200016282800962b2b00962e2e00962020000d2c2c00d02c2c00102c2c00982c2c00992e2e00992e2e0098⟩, none, none, none⟩,
  ⟨c!"MAP_VICTORY_ROAD_2F", c!"sVictoryRoad2F_LeafGreen", some ⟨7, 12,
      0x22220022222200162a2a009a2d2d0096303000962222000d2e2e00d02e2e00102e2e00982e2e00993030009930300098⟩, none, none, none⟩,
  ⟨c!"MAP_VICTORY_ROAD_3F", c!"sVictoryRoad3F_LeafGreen", some ⟨7, 12,
      0x2020002220200016282800962b2b00962e2e00962020000d2c2c00d02c2c00102c2c00982c2c00992e2e00992e2e0098⟩, none, none, none⟩,
  ⟨c!"MAP_POKEMON_MANSION_1F", c!"sPokemonMansion1F_LeafGreen", some ⟨7, 12,
      0x1c1c00272020009b1e1e00272424009b1e1e002b1c1c009d1c1c0024202000d12020002b1a1a009d2020002b1a1a009d⟩, none, none, none⟩,
  ⟨c!"MAP_POKEMON_MANSION_2F", c!"sPokemonMansion2F_LeafGreen", some ⟨7, 12,
      0x1c1c00272020009b1e1e00272424009b1e1e002b1c1c009d1c1c0024202000d12020002b1a1a009d2020002b1a1a009d⟩, none, none, none⟩,
  ⟨c!"MAP_POKEMON_MANSION_3F", c!"sPokemonMansion3F_LeafGreen", some ⟨7, 12,
      0x1c1c00272020009b1e1e00272424009b1e1e002b1c1c009d1c1c0024202000d12020002b1a1a009d2020002b1a1a009d⟩, none, none, none⟩,
  ⟨c!"MAP_POKEMON_MANSION_B1F", c!"sPokemonMansionB1F_LeafGreen", some ⟨5, 12,
      0x1c1c00272222009b1e1e00271e1e00891e1e002b2626009b1c1c0024222200d12020002b1a1a009d2020002b1a1a009d⟩, none, none, none⟩,
  ⟨c!"MAP_SAFARI_ZONE_CENTER", c!"sSafariZoneCenter_LeafGreen", some ⟨21, 12,
      0x1919005f161600aa181800a0191900a0161600a11f1f00a31f1f00a21e1e00a4161600a117170062161600a1171700a6⟩, some ⟨2, 5,
      0x141900cf141900cf191e00cf1e2300cf232800cf⟩, none, some ⟨20, 10,
      0x0505000105050001050f0002050f0001050f00a70f190002141e00650f1900a80f2300cf192300a9⟩⟩,
  ⟨c!"MAP_SAFARI_ZONE_EAST", c!"sSafariZoneEast_LeafGreen", some ⟨21, 12,
      0x181800aa1a1a0060171700a0191900a016160090212100a31818009f191900a416160090191900ab161600901c1c0062⟩, some ⟨2, 5,
      0x141900cf141900cf191e00cf1e2300cf232800cf⟩, none, some ⟨20, 10,
      0x0505000105050001050f0002050f0001050f00a70f190002141e00650f1900a80f2300cf192300a9⟩⟩,
  ⟨c!"MAP_SAFARI_ZONE_NORTH", c!"sSafariZoneNorth_LeafGreen", some ⟨21, 12,
      0x1a1a005f1e1e00aa191900a01b1b00a0171700901e1e00a31e1e00a2202000ac171700901a1a00a6171700901c1c00ad⟩, some ⟨2, 5,
      0x141900cf141900cf191e00cf1e2300cf232800cf⟩, none, some ⟨20, 10,
      0x0505000105050001050f0002050f0001050f00a70f190002141e00650f1900a80f2300cf192300a9⟩⟩,
  ⟨c!"MAP_SAFARI_ZONE_WEST", c!"sSafariZoneWest_LeafGreen", some ⟨21, 12,
      0x1a1a0060161600aa191900a01b1b00a0171700a11e1e00a31e1e009f202000ac171700a1191900ad171700a11c1c00ab⟩, some ⟨2, 5,
      0x141900cf141900cf191e00cf1e2300cf232800cf⟩, none, some ⟨20, 10,
      0x0505000105050001050f0002050f0001050f00a70f190002141e00650f1900a80f2300cf192300a9⟩⟩,
  ⟨c!"MAP_CERULEAN_CAVE_1F", c!"sCeruleanCave1F_LeafGreen", some ⟨7, 12,
      0x31310037313100a42e2e00102e2e00993434009a343400893a3a00363a3a00a4373700103737006b3d3d009a3d3d0089⟩, some ⟨2, 5,
      0x1e2800cf283200d22d3700d2283200cf283200cf⟩, some ⟨50, 5,
      0x1e280016283200312d3700312832001628320016⟩, some ⟨20, 10,
      0x0505000105050001050f00a7050f0001050f00020f1900a7141e00ae0f19000a0f1900cf192300cf⟩⟩,
  ⟨c!"MAP_CERULEAN_CAVE_2F", c!"sCeruleanCave2F_LeafGreen", some ⟨7, 12,
      0x313100103131009934340037343400a4373700af373700893a3a00103a3a006b3d3d00363d3d00a4404000af40400089⟩, none, some ⟨50, 5,
      0x232d00162d370031323c00312d3700162d370016⟩, none⟩,
  ⟨c!"MAP_CERULEAN_CAVE_B1F", c!"sCeruleanCaveB1F_LeafGreen", some ⟨7, 12,
      0x3a3a00af3a3a008937370037373700a43434001034340099434300af4343008940400036404000a43d3d00103d3d006b⟩, some ⟨2, 5,
      0x283200cf323c00d2374100d2323c00cf323c00cf⟩, some ⟨50, 5,
      0x28320016323c003137410031323c0016323c0016⟩, some ⟨20, 10,
      0x0505000105050001050f00a7050f0001050f00020f1900a7141e00ae0f19000a0f1900cf1923000a⟩⟩,
  ⟨c!"MAP_ROCK_TUNNEL_1F", c!"sRockTunnel1F_LeafGreen", some ⟨7, 12,
      0x0f0f000d10100016101000b0111100161010000d10100022111100b0111100220f0f00160d0d00960f0f00160f0f0096⟩, none, none, none⟩,
  ⟨c!"MAP_ROCK_TUNNEL_B1F", c!"sRockTunnelB1F_LeafGreen", some ⟨7, 12,
      0x1010000d11110016111100b0101000160f0f000d11110022101000b00d0d00960f0f00160f0f00960f0f001611110096⟩, none, some ⟨50, 5,
      0x051400160a1400160f1e0016192800311e280031⟩, none⟩,
  ⟨c!"MAP_SEAFOAM_ISLANDS_1F", c!"sSeafoamIslands1F_LeafGreen", some ⟨7, 12,
      0x1b1b00cf1d1d00cf1f1f00cf1616000d1616000d1818000d1a1a00101c1c0010212100cf1a1a000d1a1a00cf1e1e0010⟩, none, none, none⟩,
  ⟨c!"MAP_SEAFOAM_ISLANDS_B1F", c!"sSeafoamIslandsB1F_LeafGreen", some ⟨7, 12,
      0x1d1d00cf1f1f00cf1c1c00b11616000d1616000d1818000d1a1a00101c1c0010212100d21a1a000d232300d21e1e0010⟩, none, none, none⟩,
  ⟨c!"MAP_SEAFOAM_ISLANDS_B2F", c!"sSeafoamIslandsB2F_LeafGreen", some ⟨7, 12,
      0x1e1e00cf202000cf1e1e00b1202000b11616000d1818000d1a1a0010222200d2202000d21c1c0010202000d21e1e0010⟩, none, none, none⟩,
  ⟨c!"MAP_SEAFOAM_ISLANDS_B3F", c!"sSeafoamIslandsB3F_LeafGreen", some ⟨7, 12,
      0x1e1e00b1202000b1202000cf1e1e00cf202000d21818000d1a1a0010222200d2202000b21c1c0010222200b21e1e0010⟩, some ⟨2, 5,
      0x192300b1191e0092232800b21e2800cf232800d2⟩, none, some ⟨20, 10,
      0x0505000105050001050f0092050f0001050f005e0f190092141e00920f19000a0f1900cf1923000a⟩⟩,
  ⟨c!"MAP_SEAFOAM_ISLANDS_B4F", c!"sSeafoamIslandsB4F_LeafGreen", some ⟨7, 12,
      0x1e1e00b1202000b1202000cf222200b1202000d21a1a0010222200b2222200d2242400b21c1c0010242400b21e1e0010⟩, some ⟨2, 5,
      0x192300b1191e0092232800b21e2800cf232800d2⟩, none, some ⟨20, 10,
      0x0505000105050001050f0092050f0001050f005e0f190092141e00920f19000a0f1900cf1923000a⟩⟩,
  ⟨c!"MAP_POKEMON_TOWER_3F", c!"sPokemonTower3F_LeafGreen", some ⟨2, 12,
      0x0f0f00b3101000b3111100b30d0d00b30e0e00b3121200b3131300b30f0f00b4111100b3111100b4111100b3141400b5⟩, none, none, none⟩,
  ⟨c!"MAP_POKEMON_TOWER_4F", c!"sPokemonTower4F_LeafGreen", some ⟨4, 12,
      0x0f0f00b3101000b3111100b30d0d00b30e0e00b3121200b3141400b50f0f00b4111100b3111100b4111100b3131300b3⟩, none, none, none⟩,
  ⟨c!"MAP_POKEMON_TOWER_5F", c!"sPokemonTower5F_LeafGreen", some ⟨6, 12,
      0x0f0f00b3101000b3111100b30d0d00b30e0e00b3121200b3141400b50f0f00b4111100b3111100b4111100b3131300b3⟩, none, none, none⟩,
  ⟨c!"MAP_POKEMON_TOWER_6F", c!"sPokemonTower6F_LeafGreen", some ⟨8, 12,
      0x101000b3111100b3121200b30e0e00b30f0f00b3131300b3151500b5111100b4121200b3131300b4121200b3171700b5⟩, none, none, none⟩,
  ⟨c!"MAP_POKEMON_TOWER_7F", c!"sPokemonTower7F_LeafGreen", some ⟨10, 12,
      0x101000b3111100b3121200b30f0f00b3131300b3171700b5111100b4131300b4121200b3171700b5121200b3191900b5⟩, none, none, none⟩,
  ⟨c!"MAP_POWER_PLANT", c!"sPowerPlant_LeafGreen", some ⟨7, 12,
      0x161600341616003519190034191900351616006c1818006c1f1f0037222200371a1a006c1f1f00371a1a006c22220037⟩, none, none, none⟩,
  ⟨c!"MAP_MT_EMBER_EXTERIOR", c!"sMtEmberExterior_LeafGreen", some ⟨21, 12,
      0x1e1e00b7262600b8212100b7202000b92323002221210016242400b7282800b8262600d3272700ba282800d32a2a00ba⟩, none, some ⟨50, 5,
      0x051400160a1400160f1e0016192800311e280031⟩, none⟩,
  ⟨c!"MAP_MT_EMBER_SUMMIT_PATH_1F", c!"sMtEmberSummitPath1F_LeafGreen", some ⟨7, 12,
      0x21210016232300221d1d00161f1f00161f1f002221210022232300162525002225250016272700222525001627270022⟩, none, none, none⟩,
  ⟨c!"MAP_MT_EMBER_SUMMIT_PATH_2F", c!"sMtEmberSummitPath2F_LeafGreen", some ⟨7, 12,
      0x22220016242400221e1e0016202000162020002222220022262600992626009928280099282800992828009928280099⟩, none, some ⟨50, 5,
      0x051400160a1400160f1e0016192800311e280031⟩, none⟩,
  ⟨c!"MAP_MT_EMBER_SUMMIT_PATH_3F", c!"sMtEmberSummitPath3F_LeafGreen", some ⟨7, 12,
      0x21210016232300221d1d00161f1f00161f1f002221210022232300162525002225250016272700222525001627270022⟩, none, none, none⟩,
  ⟨c!"MAP_MT_EMBER_RUBY_PATH_1F", c!"sMtEmberRubyPath1F_LeafGreen", some ⟨7, 12,
      0x2424001626260022202000162222001622220022242400222626001628280099282800162a2a0099282800162a2a0099⟩, none, some ⟨50, 5,
      0x192300161e2d0031233200311e2800161e280016⟩, none⟩,
  ⟨c!"MAP_MT_EMBER_RUBY_PATH_B1F", c!"sMtEmberRubyPathB1F_LeafGreen", some ⟨7, 12,
      0x26260016242400162222001628280016181800261a1a00262a2a00161c1c00262a2a00161e1e00262a2a00161e1e0026⟩, none, some ⟨50, 5,
      0x192300161e2d0031233200311e2800161e280016⟩, none⟩,
  ⟨c!"MAP_MT_EMBER_RUBY_PATH_B2F", c!"sMtEmberRubyPathB2F_LeafGreen", some ⟨7, 12,
      0x282800161a1a00262a2a0016181800261c1c00261e1e00262c2c0016202000262c2c0016161600262c2c001616160026⟩, none, some ⟨50, 5,
      0x192300161e2d0031233200311e2800161e280016⟩, none⟩,
  ⟨c!"MAP_MT_EMBER_RUBY_PATH_B3F", c!"sMtEmberRubyPathB3F_LeafGreen", some ⟨7, 12,
      0x1a1a00261c1c00261e1e0026202000261818002616160026141400262222002624240026121200262424002612120026⟩, none, some ⟨50, 5,
      0x0f19002619230026282d00bb232d00bb192300bb⟩, none⟩,
  ⟨c!"MAP_MT_EMBER_RUBY_PATH_B1F_STAIRS", c!"sMtEmberRubyPathB1FStairs_LeafGreen", some ⟨7, 12,
      0x282800161a1a00262a2a0016181800261c1c00261e1e00262c2c0016202000262c2c0016161600262c2c001616160026⟩, none, some ⟨50, 5,
      0x192300161e2d0031233200311e2800161e280016⟩, none⟩,
  ⟨c!"MAP_MT_EMBER_RUBY_PATH_B2F_STAIRS", c!"sMtEmberRubyPathB2FStairs_LeafGreen", some ⟨7, 12,
      0x26260016242400162222001628280016181800261a1a00262a2a00161c1c00262a2a00161e1e00262a2a00161e1e0026⟩, none, some ⟨50, 5,
      0x192300161e2d0031233200311e2800161e280016⟩, none⟩,
  ⟨c!"MAP_THREE_ISLAND_BERRY_FOREST", c!"sThreeIslandBerryForest_LeafGreen", some ⟨21, 12,
      0x252500bc232300d4202000bd1e1e00d5222200a1222200be232300a01f1f00cf252500ac252500bf282800ac282800bf⟩, some ⟨2, 5,
      0x051400cf142300cf232800cf232800d2232800d2⟩, none, some ⟨20, 10,
      0x0505000105050001050f0002050f0001050f00a70f190002141e00650f19000a0f1900cf192300cf⟩⟩,
  ⟨c!"MAP_FOUR_ISLAND_ICEFALL_CAVE_ENTRANCE", c!"sFourIslandIcefallCaveEntrance_LeafGreen", some ⟨7, 12,
      0x2b2b00b12d2d00102d2d00b12f2f00b12828000d313100b2333300b2292900cf30300010353500b230300010353500b2⟩, some ⟨2, 5,
      0x052300b1052300cf232800b2050f0000050f0000⟩, none, some ⟨20, 10,
      0x0505000105050001050f00a7050f0001050f00020f1900a7141e00ae0f19000a0f1900cf192300cf⟩⟩,
  ⟨c!"MAP_FOUR_ISLAND_ICEFALL_CAVE_1F", c!"sFourIslandIcefallCave1F_LeafGreen", some ⟨7, 12,
      0x191900c02d2d00102d2d00b11b1b00c02828000d1d1d00c01e1e00d61f1f00c030300010171700c030300010171700c0⟩, none, none, none⟩,
  ⟨c!"MAP_FOUR_ISLAND_ICEFALL_CAVE_B1F", c!"sFourIslandIcefallCaveB1F_LeafGreen", some ⟨7, 12,
      0x191900c02d2d00102d2d00b11b1b00c02828000d1d1d00c01e1e00d61f1f00c030300010171700c030300010171700c0⟩, none, none, none⟩,
  ⟨c!"MAP_FOUR_ISLAND_ICEFALL_CAVE_BACK", c!"sFourIslandIcefallCaveBack_LeafGreen", some ⟨7, 12,
      0x2b2b00b12d2d00102d2d00b12f2f00b12828000d313100b2333300b2292900cf30300010353500b230300010353500b2⟩, some ⟨2, 5,
      0x0514000414230004232d0004232d00381e2d00c2⟩, none, some ⟨20, 10,
      0x0505000105050001050f0092050f0001050f00920f1900920f1900080f19000a192300d7192300cf⟩⟩,
  ⟨c!"MAP_SIX_ISLAND_PATTERN_BUSH", c!"sSixIslandPatternBush_LeafGreen", some ⟨21, 12,
      0x090900840909008f0e0e00840606008c0606008d0f0f00690909008e141400690909007a191900690e0e007a1e1e0069⟩, none, none, none⟩,
  ⟨c!"MAP_FIVE_ISLAND_LOST_CAVE_ROOM1", c!"sFiveIslandLostCaveRoom1_LeafGreen", some ⟨1, 12,
      0x282800b32525000d2c2c00b52e2e00b5292900102b2b0010262600b3303000b5323200b5161600d8343400b5161600d8⟩, none, none, none⟩,
  ⟨c!"MAP_FIVE_ISLAND_LOST_CAVE_ROOM2", c!"sFiveIslandLostCaveRoom2_LeafGreen", some ⟨2, 12,
      0x282800b32525000d2c2c00b52e2e00b5292900102b2b0010262600b3303000b5323200b5161600d8343400b5161600d8⟩, none, none, none⟩,
  ⟨c!"MAP_FIVE_ISLAND_LOST_CAVE_ROOM3", c!"sFiveIslandLostCaveRoom3_LeafGreen", some ⟨3, 12,
      0x282800b32525000d2c2c00b52e2e00b5292900102b2b0010262600b3303000b5323200b5161600d8343400b5161600d8⟩, none, none, none⟩,
  ⟨c!"MAP_FIVE_ISLAND_LOST_CAVE_ROOM4", c!"sFiveIslandLostCaveRoom4_LeafGreen", some ⟨4, 12,
      0x282800b32525000d2c2c00b52e2e00b5292900102b2b0010262600b3303000b5323200b5161600d8343400b5161600d8⟩, none, none, none⟩,
  ⟨c!"MAP_FIVE_ISLAND_LOST_CAVE_ROOM5", c!"sFiveIslandLostCaveRoom5_LeafGreen", some ⟨5, 12,
      0x282800b32525000d2c2c00b52e2e00b5292900102b2b0010262600b3303000b5323200b5161600d8343400b5161600d8⟩, none, none, none⟩,
  ⟨c!"MAP_FIVE_ISLAND_LOST_CAVE_ROOM6", c!"sFiveIslandLostCaveRoom6_LeafGreen", some ⟨6, 12,
      0x282800b32525000d2c2c00b52e2e00b5292900102b2b0010262600b3303000b5323200b5161600d8343400b5161600d8⟩, none, none, none⟩,
  ⟨c!"MAP_FIVE_ISLAND_LOST_CAVE_ROOM7", c!"sFiveIslandLostCaveRoom7_LeafGreen", some ⟨7, 12,
      0x282800b32525000d2c2c00b52e2e00b5292900102b2b0010262600b3303000b5323200b5161600d8343400b5161600d8⟩, none, none, none⟩,
  ⟨c!"MAP_FIVE_ISLAND_LOST_CAVE_ROOM8", c!"sFiveIslandLostCaveRoom8_LeafGreen", some ⟨8, 12,
      0x282800b32525000d2c2c00b52e2e00b5292900102b2b0010262600b3303000b5323200b5161600d8343400b5161600d8⟩, none, none, none⟩,
  ⟨c!"MAP_FIVE_ISLAND_LOST_CAVE_ROOM9", c!"sFiveIslandLostCaveRoom9_LeafGreen", some ⟨9, 12,
      0x282800b32525000d2c2c00b52e2e00b5292900102b2b0010262600b3303000b5323200b5161600d8343400b5161600d8⟩, none, none, none⟩,
  ⟨c!"MAP_FIVE_ISLAND_LOST_CAVE_ROOM10", c!"sFiveIslandLostCaveRoom10_LeafGreen", some ⟨10, 12,
      0x282800b32525000d2c2c00b52e2e00b5292900102b2b0010262600b3303000b5323200b5161600d8343400b5161600d8⟩, none, none, none⟩,
  ⟨c!"MAP_FIVE_ISLAND_LOST_CAVE_ROOM11", c!"sFiveIslandLostCaveRoom11_LeafGreen", some ⟨5, 12,
      0x282800b32525000d2c2c00b52e2e00b5292900100f0f00d8141400d8303000b5323200b5161600d8343400b5161600d8⟩, none, none, none⟩,
  ⟨c!"MAP_FIVE_ISLAND_LOST_CAVE_ROOM12", c!"sFiveIslandLostCaveRoom12_LeafGreen", some ⟨5, 12,
      0x282800b32525000d2c2c00b52e2e00b5292900100f0f00d8141400d8303000b5323200b5161600d8343400b5161600d8⟩, none, none, none⟩,
  ⟨c!"MAP_FIVE_ISLAND_LOST_CAVE_ROOM13", c!"sFiveIslandLostCaveRoom13_LeafGreen", some ⟨5, 12,
      0x282800b32525000d2c2c00b52e2e00b5292900100f0f00d8141400d8303000b5323200b5161600d8343400b5161600d8⟩, none, none, none⟩,
  ⟨c!"MAP_FIVE_ISLAND_LOST_CAVE_ROOM14", c!"sFiveIslandLostCaveRoom14_LeafGreen", some ⟨5, 12,
      0x282800b32525000d2c2c00b52e2e00b5292900100f0f00d8141400d8303000b5323200b5161600d8343400b5161600d8⟩, none, none, none⟩,
  ⟨c!"MAP_ONE_ISLAND_KINDLE_ROAD", c!"sOneIslandKindleRoad_LeafGreen", some ⟨21, 12,
      0x202000b9222200b7242400b81f1f00b71f1f00161f1f00c51e1e00b9222200cf252500ba252500c6282800ba282800c6⟩, some ⟨2, 5,
      0x0514000414230004232800042328003823280038⟩, some ⟨25, 5,
      0x051400160a1400160f1e0016192800311e280031⟩, some ⟨20, 10,
      0x0505000105050001050f0092050f0001050f00920f1900920f1900920f19000a192300d7192300cf⟩⟩,
  ⟨c!"MAP_ONE_ISLAND_TREASURE_BEACH", c!"sOneIslandTreasureBeach_LeafGreen", some ⟨21, 12,
      0x202000b9212100c71f1f00b9232300c7242400b81f1f00c5262600b81f1f00cf282800b8252500c6282800b8282800c6⟩, some ⟨2, 5,
      0x0514000414230004232800042328003823280038⟩, none, some ⟨20, 10,
      0x0505000105050001050f0092050f0001050f00920f1900920f1900920f19000a192300d7192300cf⟩⟩,
  ⟨c!"MAP_TWO_ISLAND_CAPE_BRINK", c!"sTwoIslandCapeBrink_LeafGreen", some ⟨21, 12,
      0x1f1f00b91e1e00d5202000d5242400d4242400b81f1f00c5262600d41f1f00cf252500d2252500c6282800d2282800c6⟩, some ⟨2, 5,
      0x051400cf142300cf232800cf232800d2232800d2⟩, none, some ⟨20, 10,
      0x0505000105050001050f00a7050f0001050f00020f1900a7141e00ae0f19000a0f1900cf192300cf⟩⟩,
  ⟨c!"MAP_THREE_ISLAND_BOND_BRIDGE", c!"sThreeIslandBondBridge_LeafGreen", some ⟨21, 12,
      0x202000bd1f1f00d51d1d00bd242400d4222200bc1f1f00c5222200a11f1f00cf252500bc252500c6282800bc282800c6⟩, some ⟨2, 5,
      0x0514000414230004232800042328003823280038⟩, none, some ⟨20, 10,
      0x0505000105050001050f0092050f0001050f00920f1900920f1900920f19000a192300d7192300cf⟩⟩,
  ⟨c!"MAP_THREE_ISLAND_PORT", c!"sThreeIslandPort_LeafGreen", some ⟨1, 12,
      0x0f0f00c80f0f00c80a0a00c80a0a00c8141400c8141400c8191900c81e1e00c8191900c81e1e00c8050500c8232300c8⟩, none, none, none⟩,
  ⟨c!"MAP_FIVE_ISLAND_RESORT_GORGEOUS", c!"sFiveIslandResortGorgeous_LeafGreen", none, some ⟨2, 5,
      0x05230004050f00c9232800042328003823280038⟩, none, some ⟨20, 10,
      0x0505000105050001050f0092050f0001050f00920f1900920f1900810f19000a192300d7192300cf⟩⟩,
  ⟨c!"MAP_FIVE_ISLAND_WATER_LABYRINTH", c!"sFiveIslandWaterLabyrinth_LeafGreen", none, some ⟨2, 5,
      0x05230004050f00c9232800042328003823280038⟩, none, some ⟨20, 10,
      0x0505000105050001050f0092050f0001050f00920f1900920f1900810f19000a192300d7192300cf⟩⟩,
  ⟨c!"MAP_FIVE_ISLAND_MEADOW", c!"sFiveIslandMeadow_LeafGreen", some ⟨21, 12,
      0x2c2c00bd0a0a00cb303000bc0a0a00c90f0f00cb292900c50f0f00c9292900cf323200bc2f2f00c6323200bc323200c6⟩, some ⟨2, 5,
      0x05230004050f00c9232800042328003823280038⟩, none, some ⟨20, 10,
      0x0505000105050001050f0092050f0001050f00920f1900920f1900810f19000a192300d7192300cf⟩⟩,
  ⟨c!"MAP_FIVE_ISLAND_MEMORIAL_PILLAR", c!"sFiveIslandMemorialPillar_LeafGreen", some ⟨21, 12,
      0x0a0a00c90c0c00c9080800c90e0e00c90a0a00c90c0c00c9101000c9060600c9080800c90e0e00c9080800c90e0e00c9⟩, some ⟨2, 5,
      0x05230004050f00c9232800042328003823280038⟩, none, some ⟨20, 10,
      0x0505000105050001050f0092050f0001050f00920f1900920f1900810f19000a192300d7192300cf⟩⟩,
  ⟨c!"MAP_SIX_ISLAND_OUTCAST_ISLAND", c!"sSixIslandOutcastIsland_LeafGreen", none, some ⟨2, 5,
      0x0514000414230004232800042328003823280038⟩, none, some ⟨20, 10,
      0x0505000105050001050f0092050f0001050f00920f1900920f1900810f19000a192300d7192300cf⟩⟩,
  ⟨c!"MAP_SIX_ISLAND_GREEN_PATH", c!"sSixIslandGreenPath_LeafGreen", none, some ⟨2, 5,
      0x0514000414230004232800042328003823280038⟩, none, some ⟨20, 10,
      0x0505000105050001050f0092050f0001050f00920f1900920f1900810f19000a192300d7192300cf⟩⟩,
  ⟨c!"MAP_SIX_ISLAND_WATER_PATH", c!"sSixIslandWaterPath_LeafGreen", some ⟨21, 12,
      0x2c2c00b90a0a00cb2c2c00d5303000b80f0f00cb292900c5303000d4292900cf323200b82f2f00c6323200b8323200c6⟩, some ⟨2, 5,
      0x0514000414230004232800042328003823280038⟩, none, some ⟨20, 10,
      0x0505000105050001050f0092050f0001050f00920f1900920f1900810f19000a192300d7192300cf⟩⟩,
  ⟨c!"MAP_SIX_ISLAND_RUIN_VALLEY", c!"sSixIslandRuinValley_LeafGreen", some ⟨21, 12,
      0x0f0f00672c2c00b9121200cc0f0f0000313100b82b2b00c51919006b292900cf14140067313100c614140067343400c6⟩, some ⟨2, 5,
      0x051400000a1400000f1900001419000014190000⟩, none, some ⟨20, 10,
      0x0505000105050001050f00a7050f0001050f00020f1900a7141e00ae0f19000a0f1900cf192300cf⟩⟩,
  ⟨c!"MAP_SEVEN_ISLAND_TRAINER_TOWER", c!"sSevenIslandTrainerTower_LeafGreen", none, some ⟨2, 5,
      0x0514000414230004232800d92328003823280038⟩, none, some ⟨20, 10,
      0x0505000105050001050f0092050f0001050f00920f1900920f1900810f19000a192300d7192300cf⟩⟩,
  ⟨c!"MAP_SEVEN_ISLAND_SEVAULT_CANYON_ENTRANCE", c!"sSevenIslandSevaultCanyonEntrance_LeafGreen", some ⟨21, 12,
      0x2c2c00b90a0a00cb0a0a0066303000b80f0f00cb292900c5323200b8292900cf0f0f00662f2f00c60f0f0066323200c6⟩, none, none, none⟩,
  ⟨c!"MAP_SEVEN_ISLAND_SEVAULT_CANYON", c!"sSevenIslandSevaultCanyon_LeafGreen", some ⟨21, 12,
      0x2e2e00160f0f00662e2e00b4323200b8343400982b2b00c536360096323200b80f0f00cd313100c6141400cd343400c6⟩, none, some ⟨25, 5,
      0x192300161e2d0031233200311e2800161e280016⟩, none⟩,
  ⟨c!"MAP_SEVEN_ISLAND_TANOBY_RUINS", c!"sSevenIslandTanobyRuins_LeafGreen", none, some ⟨2, 5,
      0x0514000414230004232800d92328003823280038⟩, none, some ⟨20, 10,
      0x0505000105050001050f0092050f0001050f00920f1900920f1900810f19000a192300d7192300cf⟩⟩,
  ⟨c!"MAP_ROUTE1", c!"sRoute1_LeafGreen", some ⟨21, 12,
      0x030300bd0303009d030300bd0303009d020200bd0202009d030300bd0303009d040400bd0404009d050500bd0404009d⟩, none, none, none⟩,
  ⟨c!"MAP_ROUTE2", c!"sRoute2_LeafGreen", some ⟨21, 12,
      0x0303009d030300bd0404009d040400bd0202009d020200bd0505009d050500bd0404008c0404008d0505008c0505008d⟩, none, none, none⟩,
  ⟨c!"MAP_ROUTE3", c!"sRoute3_LeafGreen", some ⟨21, 12,
      0x060600b9060600bd070700b9070700b0060600aa070700bd080800b90303004f070700aa0505004f0606009f0707004f⟩, none, none, none⟩,
  ⟨c!"MAP_ROUTE4", c!"sRoute4_LeafGreen", some ⟨21, 12,
      0x0a0a00b90a0a009d060600450a0a0045080800b90808009d0c0c00b90c0c009d0a0a00b0080800450c0c00b00c0c0045⟩, some ⟨2, 5,
      0x050a00040a140004141e00041e23000423280004⟩, none, some ⟨20, 10,
      0x0505000105050001050f0092050f0001050f005e0f1900920f1900920f19000a19230092192300cf⟩⟩,
  ⟨c!"MAP_ROUTE5", c!"sRoute5_LeafGreen", some ⟨21, 12,
      0x0a0a00c50d0d00bd0d0d00d50c0c00c50f0f00d50f0f00bd101000d5101000bd0f0f00bd0e0e00c50f0f00bd101000c5⟩, none, none, none⟩,
  ⟨c!"MAP_ROUTE6", c!"sRoute6_LeafGreen", some ⟨21, 12,
      0x0a0a00c50d0d00bd0d0d00d50c0c00c50f0f00d50f0f00bd101000d5101000bd0f0f00bd0e0e00c50f0f00bd101000c5⟩, some ⟨2, 5,
      0x141900cf141900cf191e00cf1e2300cf232800cf⟩, none, some ⟨20, 10,
      0x0505000105050001050f00a7050f0001050f00020f1900a7141e00ae0f19000a0f1900cf192300cf⟩⟩,
  ⟨c!"MAP_ROUTE7", c!"sRoute7_LeafGreen", some ⟨21, 12,
      0x131300bd111100c5131300d5121200c5161600bd161600d51212002b1414002b111100c5131300c5111100c5141400c5⟩, none, none, none⟩,
  ⟨c!"MAP_ROUTE8", c!"sRoute8_LeafGreen", some ⟨21, 12,
      0x121200bd121200c51010002b141400bd141400c5111100451111002b13130045111100450f0f002b111100451212002b⟩, none, none, none⟩,
  ⟨c!"MAP_ROUTE9", c!"sRoute9_LeafGreen", some ⟨21, 12,
      0x101000b91010009d0b0b00450f0f00450d0d00b90e0e009d111100b91111009d0e0e009d0d0d00450e0e009d11110045⟩, none, none, none⟩,
  ⟨c!"MAP_ROUTE10", c!"sRoute10_LeafGreen", some ⟨21, 12,
      0x101000b9101000340b0b00450f0f00450d0d00b90e0e0034111100b9111100340e0e00340d0d00450e0e003411110045⟩, some ⟨2, 5,
      0x050a00040a140004141e00041e23000423280004⟩, none, some ⟨20, 10,
      0x0505000105050001050f0092050f0001050f005e0f1900920f1900920f19000a19230092192300cf⟩⟩,
  ⟨c!"MAP_ROUTE11", c!"sRoute11_LeafGreen", some ⟨21, 12,
      0x0e0e00450f0f00b90c0c00450d0d00b90b0b00be0d0d00be0f0f0045111100b90c0c00450f0f00be0c0c00450f0f00be⟩, some ⟨2, 5,
      0x050a00040a140004141e00041e23000423280004⟩, none, some ⟨20, 10,
      0x0505000105050001050f0092050f0001050f005e0f1900920f1900920f19000a19230092192300cf⟩⟩,
  ⟨c!"MAP_ROUTE12", c!"sRoute12_LeafGreen", some ⟨21, 12,
      0x181800d5181800a1161600d5171700bd191900bd1a1a00a11a1a00d51b1b00bd171700bd1c1c00d4171700bd1e1e00d4⟩, some ⟨2, 5,
      0x050a00040a140004141e00041e23000423280004⟩, none, some ⟨60, 10,
      0x0505000105050001050f0092050f0001050f005e0f1900920f1900920f19000a19230092192300cf⟩⟩,
  ⟨c!"MAP_ROUTE13", c!"sRoute13_LeafGreen", some ⟨21, 12,
      0x181800d5181800a1161600d51b1b00bd191900bd1a1a00a11a1a00d5191900891d1d00bc1c1c00d41d1d00bc1e1e00d4⟩, some ⟨2, 5,
      0x050a00040a140004141e00041e23000423280004⟩, none, some ⟨20, 10,
      0x0505000105050001050f0092050f0001050f005e0f1900920f1900920f19000a19230092192300cf⟩⟩,
  ⟨c!"MAP_ROUTE14", c!"sRoute14_LeafGreen", some ⟨21, 12,
      0x181800d5181800a1161600d5171700891b1b00bd1a1a00a11a1a00d51e1e00d4171700891d1d00bc171700891d1d00bc⟩, none, none, none⟩,
  ⟨c!"MAP_ROUTE15", c!"sRoute15_LeafGreen", some ⟨21, 12,
      0x181800d5181800a1161600d51b1b00bd191900bd1a1a00a11a1a00d5191900891d1d00bc1c1c00d41d1d00bc1e1e00d4⟩, none, none, none⟩,
  ⟨c!"MAP_ROUTE16", c!"sRoute16_LeafGreen", some ⟨21, 12,
      0x141400b9121200601212009d1414009d161600b9141400601616009d161600601212009d1717009b1212009d1919009b⟩, none, none, none⟩,
  ⟨c!"MAP_ROUTE17", c!"sRoute17_LeafGreen", some ⟨21, 12,
      0x141400b918180060161600b91a1a00601919009b1b1b009b1c1c00601d1d009b1616009d191900b81616009d1b1b00b8⟩, none, none, none⟩,
  ⟨c!"MAP_ROUTE18", c!"sRoute18_LeafGreen", some ⟨21, 12,
      0x141400b918180060161600b91a1a00601919009b191900b81c1c00601d1d009b1616009d1b1b00b81616009d1d1d00b8⟩, none, none, none⟩,
  ⟨c!"MAP_ROUTE19", c!"sRoute19_LeafGreen", none, some ⟨2, 5,
      0x050a00040a140004141e00041e23000423280004⟩, none, some ⟨20, 10,
      0x0505000105050001050f0092050f0001050f005e0f1900920f1900920f19000a192300d7192300cf⟩⟩,
  ⟨c!"MAP_ROUTE20", c!"sRoute20_LeafGreen", none, some ⟨2, 5,
      0x050a00040a140004141e00041e23000423280004⟩, none, some ⟨20, 10,
      0x0505000105050001050f0092050f0001050f005e0f1900920f1900920f19000a192300d7192300cf⟩⟩,
  ⟨c!"MAP_ROUTE21_NORTH", c!"sRoute21North_LeafGreen", some ⟨14, 12,
      0x161600c7171700c7181800c7151500c7191900c7141400c7131300c71a1a00c7121200c71b1b00c7111100c71c1c00c7⟩, some ⟨2, 5,
      0x050a00040a140004141e00041e23000423280004⟩, none, some ⟨20, 10,
      0x0505000105050001050f0092050f0001050f005e0f1900920f1900920f19000a192300d7192300cf⟩⟩,
  ⟨c!"MAP_ROUTE21_SOUTH", c!"sRoute21South_LeafGreen", some ⟨14, 12,
      0x161600c7171700c7181800c7151500c7191900c7141400c7131300c71a1a00c7121200c71b1b00c7111100c71c1c00c7⟩, some ⟨2, 5,
      0x050a00040a140004141e00041e23000423280004⟩, none, some ⟨20, 10,
      0x0505000105050001050f0092050f0001050f005e0f1900920f1900920f19000a192300d7192300cf⟩⟩,
  ⟨c!"MAP_ROUTE22", c!"sRoute22_LeafGreen", some ⟨21, 12,
      0x0303009d030300b00404009d040400b00202009d020200b0030300b9050500b90505009d050500b00505009d050500b0⟩, some ⟨2, 5,
      0x141900cf141900cf191e00cf1e2300cf232800cf⟩, none, some ⟨20, 10,
      0x0505000105050001050f00a7050f0001050f00020f1900a7141e00ae0f19000a0f1900cf192300cf⟩⟩,
  ⟨c!"MAP_ROUTE23", c!"sRoute23_LeafGreen", some ⟨21, 12,
      0x202000b0282800b8222200b0222200b920200045222200452a2a009a2c2c00d0202000b92a2a00b8202000b92c2c00b8⟩, some ⟨2, 5,
      0x141900cf141900cf191e00cf1e2300cf232800cf⟩, none, some ⟨20, 10,
      0x0505000105050001050f00a7050f0001050f00020f1900a7141e00ae0f19000a0f1900cf192300cf⟩⟩,
  ⟨c!"MAP_ROUTE24", c!"sRoute24_LeafGreen", some ⟨21, 12,
      0x0707008d0707008c0b0b00bd0c0c00d50d0d00d50a0a00150d0d00bd0e0e00d50808008e080800150808008f0c0c0015⟩, some ⟨2, 5,
      0x050a00040a140004141e00041e23000423280004⟩, none, some ⟨20, 10,
      0x0505000105050001050f0092050f0001050f005e0f1900920f1900920f19000a19230092192300cf⟩⟩,
  ⟨c!"MAP_ROUTE25", c!"sRoute25_LeafGreen", some ⟨21, 12,
      0x0808008d0808008c0d0d00bd0e0e00d50d0d00d50b0b00150b0b00bd0c0c00d50909008e090900150909008f0d0d0015⟩, some ⟨2, 5,
      0x141900cf141900cf191e00cf1e2300cf232800cf⟩, none, some ⟨20, 10,
      0x0505000105050001050f00a7050f0001050f00020f1900a7141e00ae0f19000a0f1900cf192300cf⟩⟩,
  ⟨c!"MAP_PALLET_TOWN", c!"sPalletTown_LeafGreen", none, some ⟨1, 5,
      0x050a00040a140004141e00041e23000423280004⟩, none, some ⟨10, 10,
      0x050a0001050a0001050f0092050f0001050f005e0f1900920f1900080f19000a192300d7192300cf⟩⟩,
  ⟨c!"MAP_VIRIDIAN_CITY", c!"sViridianCity_LeafGreen", none, some ⟨1, 5,
      0x141900cf141900cf191e00cf1e2300cf232800cf⟩, none, some ⟨10, 10,
      0x0505000105050001050f00a7050f0001050f00020f1900a7141e00ae0f19000a0f1900cf192300cf⟩⟩,
  ⟨c!"MAP_CERULEAN_CITY", c!"sCeruleanCity_LeafGreen", none, some ⟨1, 5,
      0x050a00040a140004141e00041e23000423280004⟩, none, some ⟨10, 10,
      0x0505000105050001050f0092050f0001050f005e0f1900920f1900920f19000a19230092192300cf⟩⟩,
  ⟨c!"MAP_VERMILION_CITY", c!"sVermilionCity_LeafGreen", none, some ⟨1, 5,
      0x050a00040a140004141e00041e23000423280004⟩, none, some ⟨10, 10,
      0x0505000105050001050f0092050f0001050f005e0f1900920f1900080f19000a1923005e192300cf⟩⟩,
  ⟨c!"MAP_CELADON_CITY", c!"sCeladonCity_LeafGreen", none, some ⟨1, 5,
      0x050a00cf0a1400cf141e00cf1e2800cf1e280024⟩, none, some ⟨10, 10,
      0x0505000105050001050f0001050f0001050f00010f1900010f1900010f190001192300011e280027⟩⟩,
  ⟨c!"MAP_FUCHSIA_CITY", c!"sFuchsiaCity_LeafGreen", none, some ⟨1, 5,
      0x141900cf141900cf191e00cf1e2300cf232800cf⟩, none, some ⟨10, 10,
      0x0505000105050001050f0002050f0001050f00a70f190002141e00650f19000a0f1900cf192300cf⟩⟩,
  ⟨c!"MAP_CINNABAR_ISLAND", c!"sCinnabarIsland_LeafGreen", none, some ⟨1, 5,
      0x050a00040a140004141e00041e23000423280004⟩, none, some ⟨10, 10,
      0x0505000105050001050f0092050f0001050f005e0f1900920f1900080f19000a192300d2192300cf⟩⟩,
  ⟨c!"MAP_ONE_ISLAND", c!"sOneIsland_LeafGreen", none, some ⟨1, 5,
      0x0514000414230004232800042328003823280038⟩, none, some ⟨10, 10,
      0x0505000105050001050f0092050f0001050f00920f1900920f1900080f19000a192300d7192300cf⟩⟩,
  ⟨c!"MAP_FOUR_ISLAND", c!"sFourIsland_LeafGreen", none, some ⟨2, 5,
      0x050f0000052300cf0f1900000f1900000f190000⟩, none, some ⟨20, 10,
      0x0505000105050001050f00a7050f0001050f00020f1900a7141e00ae0f19000a0f1900cf192300cf⟩⟩,
  ⟨c!"MAP_FIVE_ISLAND", c!"sFiveIsland_LeafGreen", none, some ⟨1, 5,
      0x05230004050f00c9232800042328003823280038⟩, none, some ⟨10, 10,
      0x0505000105050001050f0092050f0001050f00920f1900920f1900080f19000a192300d7192300cf⟩⟩,
  ⟨c!"MAP_SIX_ISLAND_ALTERING_CAVE", c!"sSixIslandAlteringCave_LeafGreen", some ⟨7, 12,
      0x0a0a000d0c0c000d0808000d0e0e000d0a0a000d0c0c000d1010000d0606000d0808000d0e0e000d0808000d0e0e000d⟩, none, none, none⟩,
  ⟨c!"MAP_SIX_ISLAND_ALTERING_CAVE", c!"sSixIslandAlteringCave_2_LeafGreen", some ⟨7, 12,
      0x0707007809090078050500780b0b007807070078090900780d0d007803030078050500780b0b0078050500780b0b0078⟩, none, none, none⟩,
  ⟨c!"MAP_SIX_ISLAND_ALTERING_CAVE", c!"sSixIslandAlteringCave_3_LeafGreen", some ⟨7, 12,
      0x1717008519190085161600851b1b008517170085191900851d1d008513130085151500851b1b0085151500851b1b0085⟩, none, none, none⟩,
  ⟨c!"MAP_SIX_ISLAND_ALTERING_CAVE", c!"sSixIslandAlteringCave_4_LeafGreen", some ⟨7, 12,
      0x10100086121200860e0e0086141400861010008612120086161600860c0c00860e0e0086141400860e0e008614140086⟩, none, none, none⟩,
  ⟨c!"MAP_SIX_ISLAND_ALTERING_CAVE", c!"sSixIslandAlteringCave_5_LeafGreen", some ⟨7, 12,
      0x1616008318180083141400831a1a008316160083181800831c1c008312120083141400831a1a0083141400831a1a0083⟩, none, none, none⟩,
  ⟨c!"MAP_SIX_ISLAND_ALTERING_CAVE", c!"sSixIslandAlteringCave_6_LeafGreen", some ⟨7, 12,
      0x1616007918180079141400791a1a007916160079181800791c1c007912120079141400791a1a0079141400791a1a0079⟩, none, none, none⟩,
  ⟨c!"MAP_SIX_ISLAND_ALTERING_CAVE", c!"sSixIslandAlteringCave_7_LeafGreen", some ⟨7, 12,
      0x1616008818180088141400881a1a008816160088181800881c1c008812120088141400881a1a0088141400881a1a0088⟩, none, none, none⟩,
  ⟨c!"MAP_SIX_ISLAND_ALTERING_CAVE", c!"sSixIslandAlteringCave_8_LeafGreen", some ⟨7, 12,
      0x1616007d1818007d1414007d1a1a007d1616007d1818007d1c1c007d1212007d1414007d1a1a007d1414007d1a1a007d⟩, none, none, none⟩,
  ⟨c!"MAP_SIX_ISLAND_ALTERING_CAVE", c!"sSixIslandAlteringCave_9_LeafGreen", some ⟨7, 12,
      0x1616008a1818008a1414008a1a1a008a1616008a1818008a1c1c008a1212008a1414008a1a1a008a1414008a1a1a008a⟩, none, none, none⟩]

end Verif.Data
