import Verif.Lemmas.Bytes
import Verif.Model.Shipped3
import Verif.Model.Enc3Json
import Verif.Data.Enc3Rest
/-
The Gen 3 encounter files are the JSON texts of the entries in Verif/Data/Enc3.
-/
namespace Verif.Enc3Json
open Json JsonSpec EncLoad3 Bytes Shipped3

/-! ### the entries as JSON values -/

/-- a mon -/
def monJson (w : Nat) : Json := .obj [(n!"min_level", .num (w / 2 ^ 24 % 2 ^ 8)), (n!"max_level", .num (w / 2 ^ 16 % 2 ^ 8)),
  (n!"species", .str (codes (Data.speciesPool.getD (w % 2 ^ 16) [])))]

/-- the words of a packed list, of which `n` are left -/
def wordsOf (mons : Nat) : Nat → List Nat
  | 0 => []
  | n + 1 => (mons / 2 ^ (32 * n) % 2 ^ 32) :: wordsOf mons n

/-- a list of mons; the file has the two items in one order or the other -/
def listJson (monsFirst : Bool) (p : Data.Packed) : Json :=
  match monsFirst with
  | true => .obj [(n!"mons", .arr ((wordsOf p.mons p.count).map monJson)), (n!"encounter_rate", .num p.rate)]
  | false => .obj [(n!"encounter_rate", .num p.rate), (n!"mons", .arr ((wordsOf p.mons p.count).map monJson))]

/-- the item of a list that may be missing -/
def kindJson (key : Json.Str) (monsFirst : Bool) : Option Data.Packed → List (Json.Str × Json)
  | none => []
  | some p => [(key, listJson monsFirst p)]

/-- an entry -/
def entryJson (monsFirst : Bool) (r : Data.Raw) : Json := .obj ((n!"map", .str (codes r.map)) :: (n!"base_label", .str (codes r.label)) ::
  (kindJson n!"land_mons" monsFirst r.land ++ (kindJson n!"water_mons" monsFirst r.water ++
    (kindJson n!"rock_smash_mons" monsFirst r.rock ++ kindJson n!"fishing_mons" monsFirst r.fish))))

/-- a file with the given entries and further groups -/
def fileJson (entries rest : List Json) : Json := .obj [(n!"wild_encounter_groups", .arr (.obj [(n!"label", .str n!"gWildMonHeaders"),
  (n!"for_maps", .bool true), (n!"fields", Data.fields), (n!"encounters", .arr entries)] :: rest))]

theorem words_eq (p : Data.Packed) : (List.range p.count).map (word p) = wordsOf p.mons p.count := by
  have h : ∀ n, n ≤ p.count → (List.range n).map (fun i => p.mons / 2 ^ (32 * (n - 1 - i)) % 2 ^ 32) = wordsOf p.mons n := by
    intro n
    induction n with
    | zero => intro _; rfl
    | succ n ih =>
      intro hn
      rw [List.range_succ_eq_map, List.map_cons, List.map_map, wordsOf, ← ih (by omega)]
      refine congrArg₂ _ (by simp) (List.map_congr_left fun i hi => ?_)
      rw [List.mem_range] at hi
      simp only [Function.comp]
      congr 4
      omega
  exact h _ (Nat.le_refl _)

theorem decode_codes (s : List Char) : (codes s).map Char.ofNat = s := by
  rw [codes, List.map_map]
  conv_rhs => rw [← List.map_id s]
  refine List.map_congr_left fun c _ => ?_
  simp

theorem ok_bind {α β : Type} (a : α) (f : α → Except PyErr β) : ((Except.ok a : Except PyErr α) >>= f) = f a := rfl

theorem monOf_monJson (w : Nat) : monOf (monJson w) = .ok (unpackMon w) := by
  have h1 : item "min_level" (monJson w) = .ok (.num (w / 2 ^ 24 % 2 ^ 8)) := rfl
  have h2 : item "max_level" (monJson w) = .ok (.num (w / 2 ^ 16 % 2 ^ 8)) := rfl
  have h3 : item "species" (monJson w) = .ok (.str (codes (Data.speciesPool.getD (w % 2 ^ 16) []))) := rfl
  have h4 : strOf (.str (codes (Data.speciesPool.getD (w % 2 ^ 16) []))) = .ok (Data.speciesPool.getD (w % 2 ^ 16) []) := by
    rw [strOf, decode_codes]
  rw [monOf, h1, h2, h3]
  simp only [ok_bind, natOf, h4]
  rfl

theorem mapM_ok {α β : Type} {f : α → Except PyErr β} {g : α → β} {l : List α} (h : ∀ x ∈ l, f x = .ok (g x)) :
    l.mapM f = .ok (l.map g) := by
  induction l with
  | nil => rfl
  | cons x l ih =>
    rw [List.mapM_cons, h x List.mem_cons_self, ih fun x hx => h x (List.mem_cons_of_mem _ hx)]
    rfl

theorem monListOf_listJson (b : Bool) (p : Data.Packed) : monListOf (listJson b p) = .ok (unpack p) := by
  have h1 : item "encounter_rate" (listJson b p) = .ok (.num p.rate) := by cases b <;> rfl
  have h2 : item "mons" (listJson b p) = .ok (.arr ((wordsOf p.mons p.count).map monJson)) := by cases b <;> rfl
  have h3 : ((wordsOf p.mons p.count).map monJson).mapM monOf = .ok (unpack p).mons := by
    rw [← words_eq, List.map_map]
    have := mapM_ok (f := fun i => monOf (monJson (word p i))) (g := fun i => unpackMon (word p i)) (l := List.range p.count)
      fun i _ => monOf_monJson _
    rw [unpack]
    rw [← this, List.mapM_map]
    rfl
  rw [monListOf, h1, h2]
  show (do let mons ← ((wordsOf p.mons p.count).map monJson).mapM monOf; Except.ok (MonList.mk p.rate mons)) = _
  rw [h3]
  rfl

theorem entryOf_entryJson (b : Bool) (r : Data.Raw) : entryOf (entryJson b r) = .ok (encounterOf r) := by
  obtain ⟨map, label, land, water, rock, fish⟩ := r
  have hm : item "map" (entryJson b ⟨map, label, land, water, rock, fish⟩) = .ok (.str (codes map)) := rfl
  have hl : item "base_label" (entryJson b ⟨map, label, land, water, rock, fish⟩) = .ok (.str (codes label)) := rfl
  have h1 : optional "land_mons" (entryJson b ⟨map, label, land, water, rock, fish⟩) = .ok (land.map unpack) := by
    cases land with
    | none => cases water <;> cases rock <;> cases fish <;> rfl
    | some p =>
      have : item "land_mons" (entryJson b ⟨map, label, some p, water, rock, fish⟩) = .ok (listJson b p) := rfl
      rw [optional, this]
      simp only [monListOf_listJson]
      rfl
  have h2 : optional "water_mons" (entryJson b ⟨map, label, land, water, rock, fish⟩) = .ok (water.map unpack) := by
    cases water with
    | none => cases land <;> cases rock <;> cases fish <;> rfl
    | some p =>
      have : item "water_mons" (entryJson b ⟨map, label, land, some p, rock, fish⟩) = .ok (listJson b p) := by cases land <;> rfl
      rw [optional, this]
      simp only [monListOf_listJson]
      rfl
  have h3 : optional "rock_smash_mons" (entryJson b ⟨map, label, land, water, rock, fish⟩) = .ok (rock.map unpack) := by
    cases rock with
    | none => cases land <;> cases water <;> cases fish <;> rfl
    | some p =>
      have : item "rock_smash_mons" (entryJson b ⟨map, label, land, water, some p, fish⟩) = .ok (listJson b p) := by
        cases land <;> cases water <;> rfl
      rw [optional, this]
      simp only [monListOf_listJson]
      rfl
  have h4 : optional "fishing_mons" (entryJson b ⟨map, label, land, water, rock, fish⟩) = .ok (fish.map unpack) := by
    cases fish with
    | none => cases land <;> cases water <;> cases rock <;> rfl
    | some p =>
      have : item "fishing_mons" (entryJson b ⟨map, label, land, water, rock, some p⟩) = .ok (listJson b p) := by
        cases land <;> cases water <;> cases rock <;> rfl
      rw [optional, this]
      simp only [monListOf_listJson]
      rfl
  have h5 : ∀ s, strOf (.str (codes s)) = .ok s := by
    intro s
    rw [strOf, decode_codes]
  rw [entryOf, hm, hl, h1, h2, h3, h4]
  simp only [ok_bind, h5]
  rfl

theorem encounters_fileJson (l : List (Bool × Data.Raw)) (rest : List Json) :
    encounters (fileJson (l.map fun x => entryJson x.1 x.2) rest) = .ok (l.map fun x => encounterOf x.2) := by
  have h := mapM_ok (f := fun x : Bool × Data.Raw => entryOf (entryJson x.1 x.2)) (g := fun x => encounterOf x.2) (l := l)
    fun x _ => entryOf_entryJson _ _
  have h1 : item "wild_encounter_groups" (fileJson (l.map fun x => entryJson x.1 x.2) rest) =
    .ok (.arr (.obj [(n!"label", .str n!"gWildMonHeaders"), (n!"for_maps", .bool true), (n!"fields", Data.fields),
      (n!"encounters", .arr (l.map fun x => entryJson x.1 x.2))] :: rest)) := rfl
  have h2 : item "encounters" (.obj [(n!"label", .str n!"gWildMonHeaders"), (n!"for_maps", .bool true), (n!"fields", Data.fields),
      (n!"encounters", .arr (l.map fun x => entryJson x.1 x.2))]) = .ok (.arr (l.map fun x => entryJson x.1 x.2)) := rfl
  rw [encounters, h1]
  simp only [ok_bind, listOf, h2]
  rw [← h, List.mapM_map]
  rfl

end Verif.Enc3Json
