import Verif.Lemmas.Enc3Fast
/-
The Gen 3 encounter files, evaluated by the kernel.
-/
namespace Verif.Enc3Json
open Json JsonSpec EncLoad3 Bytes Shipped3

theorem pool_ok : poolOk Data.speciesPool Data.poolPacked = true := by decide +kernel

/-- the number of the text in front of the entries -/
def headNum : Nat := enc headText

/-- the entries with the rate first -/
def rateFirst (l : List Data.Raw) : List (Bool × Data.Raw) := l.map fun r => (false, r)

/-- the entries with the mons first -/
def monsFirst (l : List Data.Raw) : List (Bool × Data.Raw) := l.map fun r => (true, r)

theorem rs_same : force headNum (fun h => same h (enc (tailText [])) (rateFirst Data.rsRaw) Data.rsChunks) = true := by
  decide +kernel

theorem e_same : force headNum (fun h => force (enc (tailText Data.eRest)) fun t => same h t (rateFirst Data.eRaw) Data.eChunks) = true := by
  decide +kernel

theorem frlg_same : force headNum (fun h => same h (enc (tailText []))
    (rateFirst (Data.frlgRaw.take 132) ++ monsFirst (Data.frlgRaw.drop 132)) Data.frlgChunks) = true := by
  decide +kernel

theorem fields_plain : Plain Data.fields := plainB_sound _ (by decide +kernel)

theorem rest_plain : PlainList Data.eRest := plainListB_sound _ (by decide +kernel)

/-- the bytes of a file, as a value and as entries -/
structure Reads (cs : List Nat) (l : List Data.Raw) : Prop where
  value : ∃ v, Plain v ∧ cs.flatMap (Nat.digits 256) = text v
  entries : decode (cs.flatMap (Nat.digits 256)) = .ok (l.map encounterOf)

theorem reads_chunks {rest : List Json} (hr : PlainList rest) {l : List (Bool × Data.Raw)} {cs : List Nat}
    (hs : same (enc headText) (enc (tailText rest)) l cs = true) : Reads cs (l.map (·.2)) := by
  obtain ⟨h1, h2⟩ := same_sound pool_ok hr fields_plain hs
  refine ⟨⟨_, h2, h1⟩, ?_⟩
  rw [h1, decode, loads_text _ h2, List.map_map]
  exact encounters_fileJson l rest

theorem rateFirst_map (l : List Data.Raw) : (rateFirst l).map (·.2) = l := by simp [rateFirst]

theorem reads_rs : Reads Data.rsChunks Data.rsRaw := by
  have h := rs_same
  rw [force_eq, headNum] at h
  have := reads_chunks (rest := []) (by rw [PlainList]; trivial) h
  rwa [rateFirst_map] at this

theorem reads_e : Reads Data.eChunks Data.eRaw := by
  have h := e_same
  rw [force_eq, force_eq, headNum] at h
  have := reads_chunks rest_plain h
  rwa [rateFirst_map] at this

theorem reads_frlg : Reads Data.frlgChunks Data.frlgRaw := by
  have h := frlg_same
  rw [force_eq, headNum] at h
  have := reads_chunks (rest := []) (by rw [PlainList]; trivial) h
  have e : ∀ l : List Data.Raw, (rateFirst (l.take 132) ++ monsFirst (l.drop 132)).map (·.2) = l := by
    intro l
    rw [List.map_append, rateFirst_map, monsFirst, List.map_map]
    simp
  rwa [e] at this

theorem reads {game : BitVec 32} {cs : List Nat} (h : dataChunks game = .ok cs) : Reads cs (dataFile game) := by
  unfold dataChunks at h
  unfold dataFile
  split at h
  · rename_i h1
    cases h
    rw [if_pos h1]
    exact reads_rs
  · rename_i h1
    rw [if_neg h1]
    split at h
    · rename_i h2
      cases h
      rw [if_pos h2]
      exact reads_e
    · rename_i h2
      rw [if_neg h2]
      split at h
      · rename_i h3
        cases h
        rw [if_pos h3]
        exact reads_frlg
      · cases h

/-- `load` with the entries of the files in Data/Enc3 -/
theorem load_eq (game : BitVec 32) :
    load game = loadEncounter3 MapName.clean Text.constantCaseSpeciesEn game ((dataFile game).map encounterOf) := by
  cases h : dataChunks game with
  | ok cs =>
    rw [load, dataText, h]
    show (decode (cs.flatMap (Nat.digits 256)) >>= _) = _
    rw [(reads h).entries]
    rfl
  | error e =>
    rw [load, dataText, h]
    unfold dataChunks at h
    split at h
    · cases h
    · rename_i h1
      split at h
      · cases h
      · rename_i h2
        split at h
        · cases h
        · rename_i h3
          cases h
          rw [not_or] at h1 h3
          simp only [loadEncounter3, selectGame, if_neg h1.1, if_neg h1.2, if_neg h2, if_neg h3.1, if_neg h3.2]
          rfl

end Verif.Enc3Json
