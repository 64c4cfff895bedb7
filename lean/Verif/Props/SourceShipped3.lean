import Verif.Props.SourceWild3
import Verif.Props.Shipped3Maps
/-
C133 with C92: the text of `WildGenerator3` on the Gen 3 data that ships with the library.
-/
namespace Verif.Py
open Verif EncLoad3 Gen3 Spec.Gen3 Shipped3

/-- C133 with C92: for every game and every area of its file, every method, encounter type and lead (but for the places of C92 where
Cute Charm (male) can never be met), every trainer and seed, and every range of advances within reach, the text of `__init__` and then of `generate`
ends, raises nothing and returns one list of states, whatever new arrays contain. -/
theorem C133_wild3_shipped (game : BitVec 32) (n : Nat) (h : (game, n) ∈ games) (k : Nat) (r : Data.Raw) (area : EncounterArea3)
    (hp : Place game k r area) (method encounter lead : BitVec 8)
    (hne : ¬ (game = Game.emerald ∧ lead = Lead.cuteCharmM ∧ Excluded r encounter)) (tid sid : BitVec 16) (seed : BitVec 32) (delay init max : Nat)
    (hn : init + delay < 2 ^ 32) (dv iv mv : Val) (hdv : Wild3.Arg dv delay) (hiv : Wild3.Arg iv init) (hmv : Wild3.Arg mv max) :
    ∃ states, ∀ (junk8 : Nat → BitVec 8) (junk16 : Nat → BitVec 16) (F D fuel depth : Nat), 2 ^ 32 ≤ F → 4 ≤ D → 2 ^ 31 ≤ fuel → 2 ≤ depth →
      ∀ l l' a, ∃ w, run (wildProg F D junk8 junk16 tables) .numba fuel depth "__init__"
          [.sc false 8 method, .sc false 8 encounter, .sc false 8 lead, .sc false 32 game, .sc false 16 tid, .sc false 16 sid] ⟨l, [], a⟩ = (.ok .none, w) ∧
        (run (wildProg F D junk8 junk16 tables) .numba fuel depth "generate" [.sc false 32 seed, dv, iv, mv, Area3.areaVal area] ⟨l', w.fields, w.arrays⟩).1
          = .ok (Wild3.statesVal states) := by
  obtain ⟨states, hs⟩ := C92_returns game n h k r area hp method encounter lead hne tid sid seed delay init max hn
  refine ⟨states, fun junk8 junk16 F D fuel depth hF hD hf hd l l' a => ?_⟩
  have h1 := C133_wild3_init F D fuel depth (by omega) hd junk8 junk16 tables method encounter lead game tid sid (.sc false 8 method) (.sc false 8 encounter)
    (.sc false 8 lead) (.sc false 32 game) (by simp [cast, conv]) (by simp [cast, conv]) (by simp [cast, conv]) (by simp [cast, conv]) ⟨l, [], a⟩ rfl
  refine ⟨_, h1, ?_⟩
  obtain ⟨arrays, h2⟩ := C133_wild3_generate F D fuel depth hD hd junk8 junk16 tables (WildGenerator3.new tables method encounter lead game tid sid) area seed delay init max
    (.sc false 32 seed) dv iv mv (by simp [cast, conv]) hdv hiv hmv (by omega)
    ⟨l', Wild3.fieldsOf (WildGenerator3.new tables method encounter lead game tid sid), a⟩ rfl
  rw [h2]
  have h3 := hs fuel hf
  change generate (WildGenerator3.new tables method encounter lead game tid sid) fuel seed delay init max area = .ok states at h3
  change Area3.excOf Wild3.statesVal (generate (WildGenerator3.new tables method encounter lead game tid sid) fuel seed delay init max area) = _
  rw [h3]
  rfl

/-- Not vacuous: area 11 of Emerald (Route 117), in grass, with a lead that does nothing. -/
example : ∃ r area, Place Game.emerald 11 r area ∧
    ∃ states, ∀ (junk8 : Nat → BitVec 8) (junk16 : Nat → BitVec 16) (F D fuel depth : Nat), 2 ^ 32 ≤ F → 4 ≤ D → 2 ^ 31 ≤ fuel → 2 ≤ depth →
      ∀ l l' a, ∃ w, run (wildProg F D junk8 junk16 tables) .numba fuel depth "__init__"
          [.sc false 8 1, .sc false 8 Encounter.grass, .sc false 8 Lead.none, .sc false 32 Game.emerald, .sc false 16 1234, .sc false 16 5678] ⟨l, [], a⟩
            = (.ok .none, w) ∧
        (run (wildProg F D junk8 junk16 tables) .numba fuel depth "generate"
          [.sc false 32 30, .sc true 64 0, .sc true 64 0, .sc true 64 1, Area3.areaVal area] ⟨l', w.fields, w.arrays⟩).1 = .ok (Wild3.statesVal states) := by
  obtain ⟨r, area, -, hp⟩ := place_exists Game.emerald 124 (by decide) 11 (by decide)
  exact ⟨r, area, hp, C133_wild3_shipped Game.emerald 124 (by decide) 11 r area hp 1 Encounter.grass Lead.none
    (by rintro ⟨-, h, -⟩; revert h; decide) 1234 5678 30 0 0 1 (by norm_num) _ _ _ (.int 0 (by decide)) (.int 0 (by decide)) (.int 1 (by decide))⟩

end Verif.Py
