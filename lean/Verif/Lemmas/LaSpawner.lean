import Verif.Lemmas.LaCheck
import Verif.Data.LaIds
/-
Reading the spawner and outbreak files of Legends Arceus in the kernel, and a check of what they refer to.
-/
namespace Verif.LaFast
open FlatBuffer FlatBufferSpec ShippedLa EncLoadLa ShippedLaSpec

/-! ### the evaluator -/

/-- a table whose 64-bit field `k` is all that is read -/
def id64 (N len k pos : Nat) : Option (Option Int) :=
  match vtable N len pos with
  | none => none
  | some (vs, vt) =>
    match scalar N len pos vs vt 8 k with
    | none => none
    | some x => some (ou x)

def vec3 (N len pos : Nat) : Option Vec3F :=
  match vtable N len pos with
  | none => none
  | some (vs, vt) =>
    match scalar N len pos vs vt 4 0, scalar N len pos vs vt 4 1, scalar N len pos vs vt 4 2 with
    | some x, some y, some z => some ⟨ou x, ou y, ou z⟩
    | _, _, _ => none

def params (N len pos : Nat) : Option (Option Vec3F) :=
  match vtable N len pos with
  | none => none
  | some (vs, vt) =>
    match ref N len pos vs vt 7 with
    | some (some q) =>
      match vec3 N len q with
      | some v => some (some v)
      | none => none
    | _ => none

def ob : Option Nat → Option Bool
  | none => none
  | some 0 => some false
  | some (_ + 1) => some true

def spawner (N len pos : Nat) : Option PlacementSpawner8a :=
  match vtable N len pos with
  | none => none
  | some (vs, vt) =>
    match scalar N len pos vs vt 8 0, scalar N len pos vs vt 8 1, array (params N len) N len pos vs vt 2,
      scalar N len pos vs vt 4 7, scalar N len pos vs vt 4 8, scalar N len pos vs vt 1 10, scalar N len pos vs vt 1 11,
      scalar N len pos vs vt 1 12, array (id64 N len 0) N len pos vs vt 20 with
    | some a, some b, some (c :: _), some d, some e, some f, some g, some h, some (i :: _) =>
      some ⟨ou a, ou b, c, os d, os e, ob f, ob g, ob h, i⟩
    | _, _, _, _, _, _, _, _, _ => none

def group (N len pos : Nat) : Option NewHugeOutbreakGroup8a :=
  match vtable N len pos with
  | none => none
  | some (vs, vt) =>
    match scalar N len pos vs vt 8 0, array (id64 N len 7) N len pos vs vt 1, scalar N len pos vs vt 8 2 with
    | some a, some b, some c => some ⟨ou a, b, ou c⟩
    | _, _, _ => none

def append {α : Type} : List α → List α → List α
  | [], l => l
  | x :: xs, l => x :: append xs l

def lottery (N len pos : Nat) : Option NewHugeOutbreakGroupLottery8a :=
  match vtable N len pos with
  | none => none
  | some (vs, vt) =>
    match scalar N len pos vs vt 8 0, array (id64 N len 0) N len pos vs vt 1, array (id64 N len 0) N len pos vs vt 2,
      array (id64 N len 0) N len pos vs vt 3 with
    | some a, some b, some c, some d => some ⟨ou a, b, c, d, append (append b c) d⟩
    | _, _, _, _ => none

/-! ### soundness -/

variable {N len : Nat}

theorem id64_sound {k pos : Nat} {x : Option Int} (h : id64 N len k pos = some x) : Opt (bytesOf len N) pos k .u64 x := by
  unfold id64 at h
  split at h
  · cases h
  · rename_i vs vt hv
    split at h
    · cases h
    · rename_i x hx
      cases h
      exact opt_u64 (vtable_sound hv) hx

theorem vec3_sound {pos : Nat} {v : Vec3F} (h : vec3 N len pos = some v) : Vec3At (bytesOf len N) pos v := by
  unfold vec3 at h
  split at h
  · cases h
  · rename_i vs vt hv
    have hv := vtable_sound hv
    split at h
    · rename_i x y z h1 h2 h3
      cases h
      exact ⟨opt_f32 hv h1, opt_f32 hv h2, opt_f32 hv h3⟩
    · cases h

theorem params_sound {pos : Nat} {v : Option Vec3F} (h : params N len pos = some v) :
    FieldIs (bytesOf len N) pos 7 (RefAt (bytesOf len N) (Vec3At (bytesOf len N))) v := by
  unfold params at h
  split at h
  · cases h
  · rename_i vs vt hv
    have hv := vtable_sound hv
    split at h
    · rename_i q hq
      split at h
      · rename_i v hv3
        cases h
        exact ref_table hv hq (vec3_sound hv3)
      · cases h
    · cases h

theorem ob_eq (r : Option Nat) : ob r = r.map fun x => decide (x ≠ 0) := by
  rcases r with _ | _ | x <;> simp [ob]

theorem spawner_sound {pos : Nat} {s : PlacementSpawner8a} (h : spawner N len pos = some s) :
    SpawnerAt (bytesOf len N) pos s := by
  unfold spawner at h
  split at h
  · cases h
  · rename_i vs vt hv
    have hv := vtable_sound hv
    split at h
    · rename_i a b c cs d e f g h' i is h1 h2 h3 h4 h5 h6 h7 h8 h9
      cases h
      rw [ob_eq, ob_eq, ob_eq]
      exact ⟨opt_u64 hv h1, opt_u64 hv h2, ⟨cs, array_sound (make := params N len)
          (T := fun p v => FieldIs (bytesOf len N) p 7 (RefAt (bytesOf len N) (Vec3At (bytesOf len N))) v)
          (fun _ _ h => params_sound h) hv h3⟩, opt_i32 hv h4, opt_i32 hv h5, flag_sound hv h6, flag_sound hv h7,
        flag_sound hv h8, ⟨is, array_sound (make := id64 N len 0) (T := fun p v => Opt (bytesOf len N) p 0 .u64 v)
          (fun _ _ h => id64_sound h) hv h9⟩⟩
    · cases h

theorem append_eq {α : Type} (a b : List α) : append a b = a ++ b := by
  induction a with
  | nil => rfl
  | cons x a ih => rw [append, ih]; rfl

theorem root_spawners (hl : len ≤ 4294967296) {as : List PlacementSpawner8a}
    (h : root (spawner N len) N len = some as) : rootArray placementSpawner8a (bytesOf len N) = .ok as :=
  have hl : (bytesOf len N).length ≤ 4294967296 := by rwa [bytesOf_length]
  (C68_root hl _ _ (C68_spawner hl) _).mpr (root_sound (make := spawner N len)
    (T := SpawnerAt (bytesOf len N)) (fun _ _ h => spawner_sound h) h)

private theorem group_sound (hl : len ≤ 4294967296) {pos : Nat} {g : NewHugeOutbreakGroup8a}
    (h : group N len pos = some g) : newHugeOutbreakGroup8a (bytesOf len N) pos = .ok g := by
  rw [C68_group (by rwa [bytesOf_length])]
  unfold group at h
  split at h
  · cases h
  · rename_i vs vt hv
    have hv := vtable_sound hv
    split at h
    · rename_i a b c h1 h2 h3
      cases h
      exact ⟨opt_u64 hv h1, array_sound (make := id64 N len 7) (T := fun p v => Opt (bytesOf len N) p 7 .u64 v)
        (fun _ _ h => id64_sound h) hv h2, opt_u64 hv h3⟩
    · cases h

private theorem lottery_sound (hl : len ≤ 4294967296) {pos : Nat} {g : NewHugeOutbreakGroupLottery8a}
    (h : lottery N len pos = some g) : newHugeOutbreakGroupLottery8a (bytesOf len N) pos = .ok g := by
  rw [C68_lottery (by rwa [bytesOf_length])]
  unfold lottery at h
  split at h
  · cases h
  · rename_i vs vt hv
    have hv := vtable_sound hv
    split at h
    · rename_i a b c d h1 h2 h3 h4
      cases h
      have hi : ∀ q a, id64 N len 0 q = some a → Opt (bytesOf len N) q 0 .u64 a := fun _ _ h => id64_sound h
      exact ⟨opt_u64 hv h1, array_sound hi hv h2, array_sound hi hv h3, array_sound hi hv h4, by rw [append_eq, append_eq]⟩
    · cases h

theorem root_groups (hl : len ≤ 4294967296) {as : List NewHugeOutbreakGroup8a}
    (h : root (group N len) N len = some as) : rootArray newHugeOutbreakGroup8a (bytesOf len N) = .ok as :=
  have hl' : (bytesOf len N).length ≤ 4294967296 := by rwa [bytesOf_length]
  (C68_root hl' _ (fun q a => newHugeOutbreakGroup8a (bytesOf len N) q = .ok a) (fun _ _ => Iff.rfl) _).mpr
    (root_sound (make := group N len) (T := fun q a => newHugeOutbreakGroup8a (bytesOf len N) q = .ok a)
      (fun _ _ h => group_sound hl h) h)

theorem root_lotteries (hl : len ≤ 4294967296) {as : List NewHugeOutbreakGroupLottery8a}
    (h : root (lottery N len) N len = some as) : rootArray newHugeOutbreakGroupLottery8a (bytesOf len N) = .ok as :=
  have hl' : (bytesOf len N).length ≤ 4294967296 := by rwa [bytesOf_length]
  (C68_root hl' _ (fun q a => newHugeOutbreakGroupLottery8a (bytesOf len N) q = .ok a) (fun _ _ => Iff.rfl) _).mpr
    (root_sound (make := lottery N len) (T := fun q a => newHugeOutbreakGroupLottery8a (bytesOf len N) q = .ok a)
      (fun _ _ h => lottery_sound hl h) h)

end Verif.LaFast
