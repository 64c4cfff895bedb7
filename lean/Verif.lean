import Verif.Props.Compat
import Verif.Props.Lcrng
import Verif.Props.Mt
import Verif.Props.Sfmt
import Verif.Props.TinyMt
import Verif.Props.Util
import Verif.Props.Xorshift128
import Verif.Props.FloatDraw
import Verif.Props.PackedSlots
import Verif.Props.Xoroshiro
import Verif.Props.RngList
import Verif.Props.Sha1
import Verif.Props.Sha1Message
import Verif.Props.Sha1Distinct
import Verif.Props.Stat
import Verif.Props.Gen3Util
import Verif.Conform.Lcrng
import Verif.Conform.Mt
import Verif.Props.Gen3Area
import Verif.Props.State3
import Verif.Props.WildGen3
import Verif.Props.WildGen3Term
import Verif.Props.CuteCharm
import Verif.Props.Seeds
import Verif.Props.Cache
import Verif.Props.Personal
import Verif.Props.EncLoad3
import Verif.Props.MapName
import Verif.Props.Text
import Verif.Props.Shipped3
import Verif.Props.Shipped3Run
import Verif.Props.Shipped3Maps
import Verif.Model.StateText
import Verif.Props.StateText
import Verif.Props.Shipped3Text
import Verif.Props.Shipped3Unown
import Verif.Lemmas.Count
import Verif.Props.Odds3
import Verif.Props.Combos3
import Verif.Props.LcrngInt
import Verif.Props.RngListBack
import Verif.Props.AdvanceExact
import Verif.Props.FlatBuffer
import Verif.Props.EncLoadLa
import Verif.Props.CalcSlotLa
import Verif.Props.CalcSlotExact
import Verif.Lemmas.Gf2
import Verif.Lemmas.Gf2Vec
import Verif.Lemmas.Primes
import Verif.Props.XoroshiroPeriod
import Verif.Props.Xorshift128Period
import Verif.Props.TinyMtPeriod
import Verif.Props.TinyMtUniform
import Verif.Props.Imports
import Verif.Props.EnumClass
import Verif.Lemmas.PackedDefs
import Verif.Data.MtPoly
import Verif.Lemmas.MtChunks1
import Verif.Lemmas.MtChunks2
import Verif.Lemmas.Mersenne
import Verif.Lemmas.Gf2Packed
import Verif.Lemmas.MtPoly
import Verif.Lemmas.MtSeq
import Verif.Props.MtPeriod
import Verif.Lemmas.SfmtDefs
import Verif.Data.SfmtPoly
import Verif.Lemmas.SfmtChunks1
import Verif.Lemmas.SfmtChunks2
import Verif.Lemmas.SfmtPoly
import Verif.Lemmas.SfmtSeq
import Verif.Props.SfmtPeriod
import Verif.Lemmas.Cycle
import Verif.Props.Uniform
import Verif.Props.Njit
import Verif.Props.Origin3
import Verif.Props.Recover
import Verif.Model.ShippedLa
import Verif.Spec.ShippedLa
import Verif.Lemmas.ChooseExact
import Verif.Lemmas.LaFast
import Verif.Lemmas.LaLoad
import Verif.Lemmas.LaCheck
import Verif.Lemmas.LaArea5
import Verif.Lemmas.LaSpawner
import Verif.Lemmas.LaSpawnerCheck
import Verif.Lemmas.LaSpawn5
import Verif.Props.ShippedLa
import Verif.Conform.Sfmt
import Verif.Conform.TinyMt
import Verif.Conform.Xorshift128
import Verif.Conform.Xoroshiro
import Verif.Conform.Sha1
import Verif.Lemmas.Observe
import Verif.Props.Observe
import Verif.Props.ObserveMt
import Verif.Props.Determined
import Verif.Data.SfmtFull
import Verif.Lemmas.SfmtFullDefs
import Verif.Lemmas.SfmtFullPoly
import Verif.Lemmas.SfmtFull
import Verif.Lemmas.SfmtParts
import Verif.Lemmas.SfmtSeeds
import Verif.Lemmas.SfmtSeedSound
import Verif.Props.SfmtExact
import Verif.Lemmas.SfmtWords
import Verif.Lemmas.SfmtIrreducible
import Verif.Lemmas.SfmtBits
import Verif.Props.ObserveSfmt
import Verif.Data.LaNames
import Verif.Model.TableNames
import Verif.Spec.TableNames
import Verif.Lemmas.TableNames
import Verif.Lemmas.TableNamesCheck
import Verif.Props.TableNames
import Verif.Props.LowBits
import Verif.Data.Codes
import Verif.Data.Enc3Json
import Verif.Data.Enc3Rest
import Verif.Lemmas.Bytes
import Verif.Lemmas.Enc3Check
import Verif.Lemmas.Enc3Fast
import Verif.Lemmas.Enc3Json
import Verif.Lemmas.Json
import Verif.Lemmas.TableNamesText
import Verif.Model.Enc3Json
import Verif.Model.Json
import Verif.Props.Enc3Json
import Verif.Spec.Json
import Verif.Spec.JsonGrammar
import Verif.Lemmas.JsonGrammar
import Verif.Data.Personal4
import Verif.Data.Personal5
import Verif.Data.Personal6
import Verif.Data.Personal7
import Verif.Data.Personal8
import Verif.Data.Personal8La
import Verif.Model.ShippedPersonal
import Verif.Spec.ShippedPersonal
import Verif.Lemmas.ShippedPersonal
import Verif.Lemmas.PersonalCheck
import Verif.Lemmas.PersonalTables
import Verif.Props.ShippedPersonal
import Verif.Data.LaKnown
import Verif.Lemmas.LaPersonal
import Verif.Props.LaPersonal
import Verif.Model.Compilation
import Verif.Props.Compilation
import Verif.Model.Patch
import Verif.Props.Patch
import Verif.Props.LcrngDoc
import Verif.Props.ShuffleDoc
import Verif.Props.SlotFrequency
import Verif.Props.SourceText
import Verif.Props.SourceReference
import Verif.Props.SourcePeriod
import Verif.Props.SourceTwisterPeriod
import Verif.Props.SourceSha1
import Verif.Props.SourceSha1Seed
import Verif.Props.SourceArea3
import Verif.Props.SourceWild3
import Verif.Props.SourceState3
import Verif.Props.SourceLa
import Verif.Props.SourceShipped3
