import Verif.Data.Chars
/-
Generated by tools/gen_data3.py from resources/txt: the lines of the text files read by data/__init__.py.
-/
namespace Verif.Data

/-- lines of resources/txt/species_en.txt -/
def speciesEn : List (List Char) := [
  c!"Egg", c!"Bulbasaur", c!"Ivysaur", c!"Venusaur", c!"Charmander", c!"Charmeleon", c!"Charizard", c!"Squirtle",
  c!"Wartortle", c!"Blastoise", c!"Caterpie", c!"Metapod", c!"Butterfree", c!"Weedle", c!"Kakuna", c!"Beedrill",
  c!"Pidgey", c!"Pidgeotto", c!"Pidgeot", c!"Rattata", c!"Raticate", c!"Spearow", c!"Fearow", c!"Ekans", c!"Arbok",
  c!"Pikachu", c!"Raichu", c!"Sandshrew", c!"Sandslash", c!"Nidoran♀", c!"Nidorina", c!"Nidoqueen", c!"Nidoran♂",
  c!"Nidorino", c!"Nidoking", c!"Clefairy", c!"Clefable", c!"Vulpix", c!"Ninetales", c!"Jigglypuff", c!"Wigglytuff",
  c!"Zubat", c!"Golbat", c!"Oddish", c!"Gloom", c!"Vileplume", c!"Paras", c!"Parasect", c!"Venonat", c!"Venomoth",
  c!"Diglett", c!"Dugtrio", c!"Meowth", c!"Persian", c!"Psyduck", c!"Golduck", c!"Mankey", c!"Primeape",
  c!"Growlithe", c!"Arcanine", c!"Poliwag", c!"Poliwhirl", c!"Poliwrath", c!"Abra", c!"Kadabra", c!"Alakazam",
  c!"Machop", c!"Machoke", c!"Machamp", c!"Bellsprout", c!"Weepinbell", c!"Victreebel", c!"Tentacool", c!"Tentacruel",
  c!"Geodude", c!"Graveler", c!"Golem", c!"Ponyta", c!"Rapidash", c!"Slowpoke", c!"Slowbro", c!"Magnemite",
  c!"Magneton", c!"Farfetch’d", c!"Doduo", c!"Dodrio", c!"Seel", c!"Dewgong", c!"Grimer", c!"Muk", c!"Shellder",
  c!"Cloyster", c!"Gastly", c!"Haunter", c!"Gengar", c!"Onix", c!"Drowzee", c!"Hypno", c!"Krabby", c!"Kingler",
  c!"Voltorb", c!"Electrode", c!"Exeggcute", c!"Exeggutor", c!"Cubone", c!"Marowak", c!"Hitmonlee", c!"Hitmonchan",
  c!"Lickitung", c!"Koffing", c!"Weezing", c!"Rhyhorn", c!"Rhydon", c!"Chansey", c!"Tangela", c!"Kangaskhan",
  c!"Horsea", c!"Seadra", c!"Goldeen", c!"Seaking", c!"Staryu", c!"Starmie", c!"Mr. Mime", c!"Scyther", c!"Jynx",
  c!"Electabuzz", c!"Magmar", c!"Pinsir", c!"Tauros", c!"Magikarp", c!"Gyarados", c!"Lapras", c!"Ditto", c!"Eevee",
  c!"Vaporeon", c!"Jolteon", c!"Flareon", c!"Porygon", c!"Omanyte", c!"Omastar", c!"Kabuto", c!"Kabutops",
  c!"Aerodactyl", c!"Snorlax", c!"Articuno", c!"Zapdos", c!"Moltres", c!"Dratini", c!"Dragonair", c!"Dragonite",
  c!"Mewtwo", c!"Mew", c!"Chikorita", c!"Bayleef", c!"Meganium", c!"Cyndaquil", c!"Quilava", c!"Typhlosion",
  c!"Totodile", c!"Croconaw", c!"Feraligatr", c!"Sentret", c!"Furret", c!"Hoothoot", c!"Noctowl", c!"Ledyba",
  c!"Ledian", c!"Spinarak", c!"Ariados", c!"Crobat", c!"Chinchou", c!"Lanturn", c!"Pichu", c!"Cleffa", c!"Igglybuff",
  c!"Togepi", c!"Togetic", c!"Natu", c!"Xatu", c!"Mareep", c!"Flaaffy", c!"Ampharos", c!"Bellossom", c!"Marill",
  c!"Azumarill", c!"Sudowoodo", c!"Politoed", c!"Hoppip", c!"Skiploom", c!"Jumpluff", c!"Aipom", c!"Sunkern",
  c!"Sunflora", c!"Yanma", c!"Wooper", c!"Quagsire", c!"Espeon", c!"Umbreon", c!"Murkrow", c!"Slowking",
  c!"Misdreavus", c!"Unown", c!"Wobbuffet", c!"Girafarig", c!"Pineco", c!"Forretress", c!"Dunsparce", c!"Gligar",
  c!"Steelix", c!"Snubbull", c!"Granbull", c!"Qwilfish", c!"Scizor", c!"Shuckle", c!"Heracross", c!"Sneasel",
  c!"Teddiursa", c!"Ursaring", c!"Slugma", c!"Magcargo", c!"Swinub", c!"Piloswine", c!"Corsola", c!"Remoraid",
  c!"Octillery", c!"Delibird", c!"Mantine", c!"Skarmory", c!"Houndour", c!"Houndoom", c!"Kingdra", c!"Phanpy",
  c!"Donphan", c!"Porygon2", c!"Stantler", c!"Smeargle", c!"Tyrogue", c!"Hitmontop", c!"Smoochum", c!"Elekid",
  c!"Magby", c!"Miltank", c!"Blissey", c!"Raikou", c!"Entei", c!"Suicune", c!"Larvitar", c!"Pupitar", c!"Tyranitar",
  c!"Lugia", c!"Ho-Oh", c!"Celebi", c!"Treecko", c!"Grovyle", c!"Sceptile", c!"Torchic", c!"Combusken", c!"Blaziken",
  c!"Mudkip", c!"Marshtomp", c!"Swampert", c!"Poochyena", c!"Mightyena", c!"Zigzagoon", c!"Linoone", c!"Wurmple",
  c!"Silcoon", c!"Beautifly", c!"Cascoon", c!"Dustox", c!"Lotad", c!"Lombre", c!"Ludicolo", c!"Seedot", c!"Nuzleaf",
  c!"Shiftry", c!"Taillow", c!"Swellow", c!"Wingull", c!"Pelipper", c!"Ralts", c!"Kirlia", c!"Gardevoir", c!"Surskit",
  c!"Masquerain", c!"Shroomish", c!"Breloom", c!"Slakoth", c!"Vigoroth", c!"Slaking", c!"Nincada", c!"Ninjask",
  c!"Shedinja", c!"Whismur", c!"Loudred", c!"Exploud", c!"Makuhita", c!"Hariyama", c!"Azurill", c!"Nosepass",
  c!"Skitty", c!"Delcatty", c!"Sableye", c!"Mawile", c!"Aron", c!"Lairon", c!"Aggron", c!"Meditite", c!"Medicham",
  c!"Electrike", c!"Manectric", c!"Plusle", c!"Minun", c!"Volbeat", c!"Illumise", c!"Roselia", c!"Gulpin", c!"Swalot",
  c!"Carvanha", c!"Sharpedo", c!"Wailmer", c!"Wailord", c!"Numel", c!"Camerupt", c!"Torkoal", c!"Spoink", c!"Grumpig",
  c!"Spinda", c!"Trapinch", c!"Vibrava", c!"Flygon", c!"Cacnea", c!"Cacturne", c!"Swablu", c!"Altaria", c!"Zangoose",
  c!"Seviper", c!"Lunatone", c!"Solrock", c!"Barboach", c!"Whiscash", c!"Corphish", c!"Crawdaunt", c!"Baltoy",
  c!"Claydol", c!"Lileep", c!"Cradily", c!"Anorith", c!"Armaldo", c!"Feebas", c!"Milotic", c!"Castform", c!"Kecleon",
  c!"Shuppet", c!"Banette", c!"Duskull", c!"Dusclops", c!"Tropius", c!"Chimecho", c!"Absol", c!"Wynaut", c!"Snorunt",
  c!"Glalie", c!"Spheal", c!"Sealeo", c!"Walrein", c!"Clamperl", c!"Huntail", c!"Gorebyss", c!"Relicanth",
  c!"Luvdisc", c!"Bagon", c!"Shelgon", c!"Salamence", c!"Beldum", c!"Metang", c!"Metagross", c!"Regirock", c!"Regice",
  c!"Registeel", c!"Latias", c!"Latios", c!"Kyogre", c!"Groudon", c!"Rayquaza", c!"Jirachi", c!"Deoxys", c!"Turtwig",
  c!"Grotle", c!"Torterra", c!"Chimchar", c!"Monferno", c!"Infernape", c!"Piplup", c!"Prinplup", c!"Empoleon",
  c!"Starly", c!"Staravia", c!"Staraptor", c!"Bidoof", c!"Bibarel", c!"Kricketot", c!"Kricketune", c!"Shinx",
  c!"Luxio", c!"Luxray", c!"Budew", c!"Roserade", c!"Cranidos", c!"Rampardos", c!"Shieldon", c!"Bastiodon", c!"Burmy",
  c!"Wormadam", c!"Mothim", c!"Combee", c!"Vespiquen", c!"Pachirisu", c!"Buizel", c!"Floatzel", c!"Cherubi",
  c!"Cherrim", c!"Shellos", c!"Gastrodon", c!"Ambipom", c!"Drifloon", c!"Drifblim", c!"Buneary", c!"Lopunny",
  c!"Mismagius", c!"Honchkrow", c!"Glameow", c!"Purugly", c!"Chingling", c!"Stunky", c!"Skuntank", c!"Bronzor",
  c!"Bronzong", c!"Bonsly", c!"Mime Jr.", c!"Happiny", c!"Chatot", c!"Spiritomb", c!"Gible", c!"Gabite", c!"Garchomp",
  c!"Munchlax", c!"Riolu", c!"Lucario", c!"Hippopotas", c!"Hippowdon", c!"Skorupi", c!"Drapion", c!"Croagunk",
  c!"Toxicroak", c!"Carnivine", c!"Finneon", c!"Lumineon", c!"Mantyke", c!"Snover", c!"Abomasnow", c!"Weavile",
  c!"Magnezone", c!"Lickilicky", c!"Rhyperior", c!"Tangrowth", c!"Electivire", c!"Magmortar", c!"Togekiss",
  c!"Yanmega", c!"Leafeon", c!"Glaceon", c!"Gliscor", c!"Mamoswine", c!"Porygon-Z", c!"Gallade", c!"Probopass",
  c!"Dusknoir", c!"Froslass", c!"Rotom", c!"Uxie", c!"Mesprit", c!"Azelf", c!"Dialga", c!"Palkia", c!"Heatran",
  c!"Regigigas", c!"Giratina", c!"Cresselia", c!"Phione", c!"Manaphy", c!"Darkrai", c!"Shaymin", c!"Arceus",
  c!"Victini", c!"Snivy", c!"Servine", c!"Serperior", c!"Tepig", c!"Pignite", c!"Emboar", c!"Oshawott", c!"Dewott",
  c!"Samurott", c!"Patrat", c!"Watchog", c!"Lillipup", c!"Herdier", c!"Stoutland", c!"Purrloin", c!"Liepard",
  c!"Pansage", c!"Simisage", c!"Pansear", c!"Simisear", c!"Panpour", c!"Simipour", c!"Munna", c!"Musharna",
  c!"Pidove", c!"Tranquill", c!"Unfezant", c!"Blitzle", c!"Zebstrika", c!"Roggenrola", c!"Boldore", c!"Gigalith",
  c!"Woobat", c!"Swoobat", c!"Drilbur", c!"Excadrill", c!"Audino", c!"Timburr", c!"Gurdurr", c!"Conkeldurr",
  c!"Tympole", c!"Palpitoad", c!"Seismitoad", c!"Throh", c!"Sawk", c!"Sewaddle", c!"Swadloon", c!"Leavanny",
  c!"Venipede", c!"Whirlipede", c!"Scolipede", c!"Cottonee", c!"Whimsicott", c!"Petilil", c!"Lilligant", c!"Basculin",
  c!"Sandile", c!"Krokorok", c!"Krookodile", c!"Darumaka", c!"Darmanitan", c!"Maractus", c!"Dwebble", c!"Crustle",
  c!"Scraggy", c!"Scrafty", c!"Sigilyph", c!"Yamask", c!"Cofagrigus", c!"Tirtouga", c!"Carracosta", c!"Archen",
  c!"Archeops", c!"Trubbish", c!"Garbodor", c!"Zorua", c!"Zoroark", c!"Minccino", c!"Cinccino", c!"Gothita",
  c!"Gothorita", c!"Gothitelle", c!"Solosis", c!"Duosion", c!"Reuniclus", c!"Ducklett", c!"Swanna", c!"Vanillite",
  c!"Vanillish", c!"Vanilluxe", c!"Deerling", c!"Sawsbuck", c!"Emolga", c!"Karrablast", c!"Escavalier", c!"Foongus",
  c!"Amoonguss", c!"Frillish", c!"Jellicent", c!"Alomomola", c!"Joltik", c!"Galvantula", c!"Ferroseed",
  c!"Ferrothorn", c!"Klink", c!"Klang", c!"Klinklang", c!"Tynamo", c!"Eelektrik", c!"Eelektross", c!"Elgyem",
  c!"Beheeyem", c!"Litwick", c!"Lampent", c!"Chandelure", c!"Axew", c!"Fraxure", c!"Haxorus", c!"Cubchoo",
  c!"Beartic", c!"Cryogonal", c!"Shelmet", c!"Accelgor", c!"Stunfisk", c!"Mienfoo", c!"Mienshao", c!"Druddigon",
  c!"Golett", c!"Golurk", c!"Pawniard", c!"Bisharp", c!"Bouffalant", c!"Rufflet", c!"Braviary", c!"Vullaby",
  c!"Mandibuzz", c!"Heatmor", c!"Durant", c!"Deino", c!"Zweilous", c!"Hydreigon", c!"Larvesta", c!"Volcarona",
  c!"Cobalion", c!"Terrakion", c!"Virizion", c!"Tornadus", c!"Thundurus", c!"Reshiram", c!"Zekrom", c!"Landorus",
  c!"Kyurem", c!"Keldeo", c!"Meloetta", c!"Genesect", c!"Chespin", c!"Quilladin", c!"Chesnaught", c!"Fennekin",
  c!"Braixen", c!"Delphox", c!"Froakie", c!"Frogadier", c!"Greninja", c!"Bunnelby", c!"Diggersby", c!"Fletchling",
  c!"Fletchinder", c!"Talonflame", c!"Scatterbug", c!"Spewpa", c!"Vivillon", c!"Litleo", c!"Pyroar", c!"Flabébé",
  c!"Floette", c!"Florges", c!"Skiddo", c!"Gogoat", c!"Pancham", c!"Pangoro", c!"Furfrou", c!"Espurr", c!"Meowstic",
  c!"Honedge", c!"Doublade", c!"Aegislash", c!"Spritzee", c!"Aromatisse", c!"Swirlix", c!"Slurpuff", c!"Inkay",
  c!"Malamar", c!"Binacle", c!"Barbaracle", c!"Skrelp", c!"Dragalge", c!"Clauncher", c!"Clawitzer", c!"Helioptile",
  c!"Heliolisk", c!"Tyrunt", c!"Tyrantrum", c!"Amaura", c!"Aurorus", c!"Sylveon", c!"Hawlucha", c!"Dedenne",
  c!"Carbink", c!"Goomy", c!"Sliggoo", c!"Goodra", c!"Klefki", c!"Phantump", c!"Trevenant", c!"Pumpkaboo",
  c!"Gourgeist", c!"Bergmite", c!"Avalugg", c!"Noibat", c!"Noivern", c!"Xerneas", c!"Yveltal", c!"Zygarde",
  c!"Diancie", c!"Hoopa", c!"Volcanion", c!"Rowlet", c!"Dartrix", c!"Decidueye", c!"Litten", c!"Torracat",
  c!"Incineroar", c!"Popplio", c!"Brionne", c!"Primarina", c!"Pikipek", c!"Trumbeak", c!"Toucannon", c!"Yungoos",
  c!"Gumshoos", c!"Grubbin", c!"Charjabug", c!"Vikavolt", c!"Crabrawler", c!"Crabominable", c!"Oricorio",
  c!"Cutiefly", c!"Ribombee", c!"Rockruff", c!"Lycanroc", c!"Wishiwashi", c!"Mareanie", c!"Toxapex", c!"Mudbray",
  c!"Mudsdale", c!"Dewpider", c!"Araquanid", c!"Fomantis", c!"Lurantis", c!"Morelull", c!"Shiinotic", c!"Salandit",
  c!"Salazzle", c!"Stufful", c!"Bewear", c!"Bounsweet", c!"Steenee", c!"Tsareena", c!"Comfey", c!"Oranguru",
  c!"Passimian", c!"Wimpod", c!"Golisopod", c!"Sandygast", c!"Palossand", c!"Pyukumuku", c!"Type: Null", c!"Silvally",
  c!"Minior", c!"Komala", c!"Turtonator", c!"Togedemaru", c!"Mimikyu", c!"Bruxish", c!"Drampa", c!"Dhelmise",
  c!"Jangmo-o", c!"Hakamo-o", c!"Kommo-o", c!"Tapu Koko", c!"Tapu Lele", c!"Tapu Bulu", c!"Tapu Fini", c!"Cosmog",
  c!"Cosmoem", c!"Solgaleo", c!"Lunala", c!"Nihilego", c!"Buzzwole", c!"Pheromosa", c!"Xurkitree", c!"Celesteela",
  c!"Kartana", c!"Guzzlord", c!"Necrozma", c!"Magearna", c!"Marshadow", c!"Poipole", c!"Naganadel", c!"Stakataka",
  c!"Blacephalon", c!"Zeraora", c!"Meltan", c!"Melmetal", c!"Grookey", c!"Thwackey", c!"Rillaboom", c!"Scorbunny",
  c!"Raboot", c!"Cinderace", c!"Sobble", c!"Drizzile", c!"Inteleon", c!"Skwovet", c!"Greedent", c!"Rookidee",
  c!"Corvisquire", c!"Corviknight", c!"Blipbug", c!"Dottler", c!"Orbeetle", c!"Nickit", c!"Thievul", c!"Gossifleur",
  c!"Eldegoss", c!"Wooloo", c!"Dubwool", c!"Chewtle", c!"Drednaw", c!"Yamper", c!"Boltund", c!"Rolycoly", c!"Carkol",
  c!"Coalossal", c!"Applin", c!"Flapple", c!"Appletun", c!"Silicobra", c!"Sandaconda", c!"Cramorant", c!"Arrokuda",
  c!"Barraskewda", c!"Toxel", c!"Toxtricity", c!"Sizzlipede", c!"Centiskorch", c!"Clobbopus", c!"Grapploct",
  c!"Sinistea", c!"Polteageist", c!"Hatenna", c!"Hattrem", c!"Hatterene", c!"Impidimp", c!"Morgrem", c!"Grimmsnarl",
  c!"Obstagoon", c!"Perrserker", c!"Cursola", c!"Sirfetch’d", c!"Mr. Rime", c!"Runerigus", c!"Milcery", c!"Alcremie",
  c!"Falinks", c!"Pincurchin", c!"Snom", c!"Frosmoth", c!"Stonjourner", c!"Eiscue", c!"Indeedee", c!"Morpeko",
  c!"Cufant", c!"Copperajah", c!"Dracozolt", c!"Arctozolt", c!"Dracovish", c!"Arctovish", c!"Duraludon", c!"Dreepy",
  c!"Drakloak", c!"Dragapult", c!"Zacian", c!"Zamazenta", c!"Eternatus", c!"Kubfu", c!"Urshifu", c!"Zarude",
  c!"Regieleki", c!"Regidrago", c!"Glastrier", c!"Spectrier", c!"Calyrex", c!"Wyrdeer", c!"Kleavor", c!"Ursaluna",
  c!"Basculegion", c!"Sneasler", c!"Overqwil", c!"Enamorus", c!"Sprigatito", c!"Floragato", c!"Meowscarada",
  c!"Fuecoco", c!"Crocalor", c!"Skeledirge", c!"Quaxly", c!"Quaxwell", c!"Quaquaval", c!"Lechonk", c!"Oinkologne",
  c!"Tarountula", c!"Spidops", c!"Nymble", c!"Lokix", c!"Pawmi", c!"Pawmo", c!"Pawmot", c!"Tandemaus", c!"Maushold",
  c!"Fidough", c!"Dachsbun", c!"Smoliv", c!"Dolliv", c!"Arboliva", c!"Squawkabilly", c!"Nacli", c!"Naclstack",
  c!"Garganacl", c!"Charcadet", c!"Armarouge", c!"Ceruledge", c!"Tadbulb", c!"Bellibolt", c!"Wattrel",
  c!"Kilowattrel", c!"Maschiff", c!"Mabosstiff", c!"Shroodle", c!"Grafaiai", c!"Bramblin", c!"Brambleghast",
  c!"Toedscool", c!"Toedscruel", c!"Klawf", c!"Capsakid", c!"Scovillain", c!"Rellor", c!"Rabsca", c!"Flittle",
  c!"Espathra", c!"Tinkatink", c!"Tinkatuff", c!"Tinkaton", c!"Wiglett", c!"Wugtrio", c!"Bombirdier", c!"Finizen",
  c!"Palafin", c!"Varoom", c!"Revavroom", c!"Cyclizar", c!"Orthworm", c!"Glimmet", c!"Glimmora", c!"Greavard",
  c!"Houndstone", c!"Flamigo", c!"Cetoddle", c!"Cetitan", c!"Veluza", c!"Dondozo", c!"Tatsugiri", c!"Annihilape",
  c!"Clodsire", c!"Farigiraf", c!"Dudunsparce", c!"Kingambit", c!"Great Tusk", c!"Scream Tail", c!"Brute Bonnet",
  c!"Flutter Mane", c!"Slither Wing", c!"Sandy Shocks", c!"Iron Treads", c!"Iron Bundle", c!"Iron Hands",
  c!"Iron Jugulis", c!"Iron Moth", c!"Iron Thorns", c!"Frigibax", c!"Arctibax", c!"Baxcalibur", c!"Gimmighoul",
  c!"Gholdengo", c!"Wo-Chien", c!"Chien-Pao", c!"Ting-Lu", c!"Chi-Yu", c!"Roaring Moon", c!"Iron Valiant",
  c!"Koraidon", c!"Miraidon", c!"Walking Wake", c!"Iron Leaves"]

/-- lines of resources/txt/abilities_en.txt -/
def abilitiesEn : List (List Char) := [
  c!"—", c!"Stench", c!"Drizzle", c!"Speed Boost", c!"Battle Armor", c!"Sturdy", c!"Damp", c!"Limber", c!"Sand Veil",
  c!"Static", c!"Volt Absorb", c!"Water Absorb", c!"Oblivious", c!"Cloud Nine", c!"Compound Eyes", c!"Insomnia",
  c!"Color Change", c!"Immunity", c!"Flash Fire", c!"Shield Dust", c!"Own Tempo", c!"Suction Cups", c!"Intimidate",
  c!"Shadow Tag", c!"Rough Skin", c!"Wonder Guard", c!"Levitate", c!"Effect Spore", c!"Synchronize", c!"Clear Body",
  c!"Natural Cure", c!"Lightning Rod", c!"Serene Grace", c!"Swift Swim", c!"Chlorophyll", c!"Illuminate", c!"Trace",
  c!"Huge Power", c!"Poison Point", c!"Inner Focus", c!"Magma Armor", c!"Water Veil", c!"Magnet Pull", c!"Soundproof",
  c!"Rain Dish", c!"Sand Stream", c!"Pressure", c!"Thick Fat", c!"Early Bird", c!"Flame Body", c!"Run Away",
  c!"Keen Eye", c!"Hyper Cutter", c!"Pickup", c!"Truant", c!"Hustle", c!"Cute Charm", c!"Plus", c!"Minus",
  c!"Forecast", c!"Sticky Hold", c!"Shed Skin", c!"Guts", c!"Marvel Scale", c!"Liquid Ooze", c!"Overgrow", c!"Blaze",
  c!"Torrent", c!"Swarm", c!"Rock Head", c!"Drought", c!"Arena Trap", c!"Vital Spirit", c!"White Smoke",
  c!"Pure Power", c!"Shell Armor", c!"Air Lock", c!"Tangled Feet", c!"Motor Drive", c!"Rivalry", c!"Steadfast",
  c!"Snow Cloak", c!"Gluttony", c!"Anger Point", c!"Unburden", c!"Heatproof", c!"Simple", c!"Dry Skin", c!"Download",
  c!"Iron Fist", c!"Poison Heal", c!"Adaptability", c!"Skill Link", c!"Hydration", c!"Solar Power", c!"Quick Feet",
  c!"Normalize", c!"Sniper", c!"Magic Guard", c!"No Guard", c!"Stall", c!"Technician", c!"Leaf Guard", c!"Klutz",
  c!"Mold Breaker", c!"Super Luck", c!"Aftermath", c!"Anticipation", c!"Forewarn", c!"Unaware", c!"Tinted Lens",
  c!"Filter", c!"Slow Start", c!"Scrappy", c!"Storm Drain", c!"Ice Body", c!"Solid Rock", c!"Snow Warning",
  c!"Honey Gather", c!"Frisk", c!"Reckless", c!"Multitype", c!"Flower Gift", c!"Bad Dreams", c!"Pickpocket",
  c!"Sheer Force", c!"Contrary", c!"Unnerve", c!"Defiant", c!"Defeatist", c!"Cursed Body", c!"Healer",
  c!"Friend Guard", c!"Weak Armor", c!"Heavy Metal", c!"Light Metal", c!"Multiscale", c!"Toxic Boost",
  c!"Flare Boost", c!"Harvest", c!"Telepathy", c!"Moody", c!"Overcoat", c!"Poison Touch", c!"Regenerator",
  c!"Big Pecks", c!"Sand Rush", c!"Wonder Skin", c!"Analytic", c!"Illusion", c!"Imposter", c!"Infiltrator", c!"Mummy",
  c!"Moxie", c!"Justified", c!"Rattled", c!"Magic Bounce", c!"Sap Sipper", c!"Prankster", c!"Sand Force",
  c!"Iron Barbs", c!"Zen Mode", c!"Victory Star", c!"Turboblaze", c!"Teravolt", c!"Aroma Veil", c!"Flower Veil",
  c!"Cheek Pouch", c!"Protean", c!"Fur Coat", c!"Magician", c!"Bulletproof", c!"Competitive", c!"Strong Jaw",
  c!"Refrigerate", c!"Sweet Veil", c!"Stance Change", c!"Gale Wings", c!"Mega Launcher", c!"Grass Pelt",
  c!"Symbiosis", c!"Tough Claws", c!"Pixilate", c!"Gooey", c!"Aerilate", c!"Parental Bond", c!"Dark Aura",
  c!"Fairy Aura", c!"Aura Break", c!"Primordial Sea", c!"Desolate Land", c!"Delta Stream", c!"Stamina", c!"Wimp Out",
  c!"Emergency Exit", c!"Water Compaction", c!"Merciless", c!"Shields Down", c!"Stakeout", c!"Water Bubble",
  c!"Steelworker", c!"Berserk", c!"Slush Rush", c!"Long Reach", c!"Liquid Voice", c!"Triage", c!"Galvanize",
  c!"Surge Surfer", c!"Schooling", c!"Disguise", c!"Battle Bond", c!"Power Construct", c!"Corrosion", c!"Comatose",
  c!"Queenly Majesty", c!"Innards Out", c!"Dancer", c!"Battery", c!"Fluffy", c!"Dazzling", c!"Soul-Heart",
  c!"Tangling Hair", c!"Receiver", c!"Power of Alchemy", c!"Beast Boost", c!"RKS System", c!"Electric Surge",
  c!"Psychic Surge", c!"Misty Surge", c!"Grassy Surge", c!"Full Metal Body", c!"Shadow Shield", c!"Prism Armor",
  c!"Neuroforce", c!"Intrepid Sword", c!"Dauntless Shield", c!"Libero", c!"Ball Fetch", c!"Cotton Down",
  c!"Propeller Tail", c!"Mirror Armor", c!"Gulp Missile", c!"Stalwart", c!"Steam Engine", c!"Punk Rock",
  c!"Sand Spit", c!"Ice Scales", c!"Ripen", c!"Ice Face", c!"Power Spot", c!"Mimicry", c!"Screen Cleaner",
  c!"Steely Spirit", c!"Perish Body", c!"Wandering Spirit", c!"Gorilla Tactics", c!"Neutralizing Gas",
  c!"Pastel Veil", c!"Hunger Switch", c!"Quick Draw", c!"Unseen Fist", c!"Curious Medicine", c!"Transistor",
  c!"Dragon’s Maw", c!"Chilling Neigh", c!"Grim Neigh", c!"As One", c!"As One", c!"Lingering Aroma", c!"Seed Sower",
  c!"Thermal Exchange", c!"Anger Shell", c!"Purifying Salt", c!"Well-Baked Body", c!"Wind Rider", c!"Guard Dog",
  c!"Rocky Payload", c!"Wind Power", c!"Zero to Hero", c!"Commander", c!"Electromorphosis", c!"Protosynthesis",
  c!"Quark Drive", c!"Good as Gold", c!"Vessel of Ruin", c!"Sword of Ruin", c!"Tablets of Ruin", c!"Beads of Ruin",
  c!"Orichalcum Pulse", c!"Hadron Engine", c!"Opportunist", c!"Cud Chew", c!"Sharpness", c!"Supreme Overlord",
  c!"Costar", c!"Toxic Debris", c!"Armor Tail", c!"Earth Eater", c!"Mycelium Might"]

/-- lines of resources/txt/natures_en.txt -/
def naturesEn : List (List Char) := [
  c!"Hardy", c!"Lonely", c!"Brave", c!"Adamant", c!"Naughty", c!"Bold", c!"Docile", c!"Relaxed", c!"Impish", c!"Lax",
  c!"Timid", c!"Hasty", c!"Serious", c!"Jolly", c!"Naive", c!"Modest", c!"Mild", c!"Quiet", c!"Bashful", c!"Rash",
  c!"Calm", c!"Gentle", c!"Sassy", c!"Careful", c!"Quirky"]

/-- lines of resources/txt/types_en.txt -/
def typesEn : List (List Char) := [
  c!"Normal", c!"Fighting", c!"Flying", c!"Poison", c!"Ground", c!"Rock", c!"Bug", c!"Ghost", c!"Steel", c!"Fire",
  c!"Water", c!"Grass", c!"Electric", c!"Psychic", c!"Ice", c!"Dragon", c!"Dark", c!"Fairy"]

end Verif.Data
