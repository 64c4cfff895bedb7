import Verif.Py.Sha1Init
/-
C133 for sha1.py (see `Verif/Props/SourceText.lean`).
-/
namespace Verif.Py

open Verif.Sha1 in
/-- C133: the definitions of sha1.py:50-111. Each evaluates to a new array of five words, those of the model's `nazoOf`; other arrays
stay as they are. -/
theorem C133_sha1_constants (mode : Mode) (junk : Mem) (fuel depth : Nat) (hd : 3 ≤ depth) (c : String × Expr) (hc : c ∈ Source.sha1_constants) :
    ∃ n, Sha1.nazoOf c.2 = some n ∧ ∀ w, Sha1.Fresh w n (eval (Sha1.env mode junk fuel depth) c.2 w) := by
  obtain ⟨e, rfl⟩ := Nat.exists_eq_add_of_le' hd
  have h : (Sha1.nazoOf c.2).isSome := by
    revert c
    decide +kernel
  obtain ⟨n, hn⟩ := Option.isSome_iff_exists.mp h
  exact ⟨n, hn, Sha1.nazoOf_eval mode junk fuel e c.2 n hn⟩

/-- an array with these words -/
def nazoArray : Option Verif.Sha1.Nazo → Arr
  | some n => .w32 5 (((((default : Mem).set 0 n.n0).set 1 n.n1).set 2 n.n2).set 3 n.n3 |>.set 4 n.n4)
  | .none => .w32 5 default

/-- the arrays of the module, without others -/
def nazoArrays : List (String × Arr) := Source.sha1_constants.map fun c => (c.1, nazoArray (Sha1.nazoOf c.2))

theorem nazoArrays_loaded : Sha1.Loaded nazoArrays := by
  intro x n h
  have hg : ∀ (l : List (String × Expr)) (f : Expr → Arr), get x (l.map fun c => (c.1, f c.2)) = (get x l).map f := by
    intro l f
    induction l with
    | nil => rfl
    | cons a l ih =>
      obtain ⟨y, e⟩ := a
      simp only [List.map_cons, get]
      split <;> simp [ih]
  simp only [Sha1.nazoNamed] at h
  cases he : get x Source.sha1_constants with
  | none => simp [he] at h
  | some e =>
    rw [he] at h
    replace h : Sha1.nazoOf e = some n := h
    have e1 := hg Source.sha1_constants fun e => nazoArray (Sha1.nazoOf e)
    rw [he, Option.map_some, h] at e1
    exact ⟨_, e1, ⟨rfl, rfl, rfl, rfl, rfl⟩⟩

open Verif.Sha1 in
/-- C133: `SHA1.__init__` and `get_nazo`, when the module has been loaded. The numbers may be given by any values that stand for them;
`junk` is what `np.empty` finds in memory. -/
theorem C133_sha1_init (mode : Mode) (junk : Mem) (v l d mac vf gx : Val) (n : BitVec 32) (L : Language) (t : DSType) (x : BitVec 64) (reset : Bool)
    (f g : BitVec 8) (hv : Sha1.Stands 32 v n) (hl : Sha1.Stands 8 l (Sha1.langNum L)) (hd : Sha1.Stands 8 d (Sha1.dsNum t))
    (hx : cast u64 mac = .ok (.sc false 64 x)) (hf : cast u8 vf = .ok (.sc false 8 f)) (hg : cast u8 gx = .ok (.sc false 8 g))
    (fuel depth : Nat) (hdepth : 4 ≤ depth) (K : List (String × Arr)) (hK : Sha1.Loaded K) (fields : List (String × Val)) :
    (∀ loc, Sha1.Gives ⟨loc, fields, K⟩ (getNazo (Sha1.verOf n) L t) (run (Sha1.prog mode junk) mode fuel depth "get_nazo" [v, l, d] ⟨loc, fields, K⟩)) ∧
    ∃ o', Sha1.Rep K (new mode junk (Sha1.verOf n) L t x reset f g) o' ∧ ∀ loc,
      run (Sha1.prog mode junk) mode fuel depth "__init__" [v, l, d, mac, .bool reset, vf, gx] ⟨loc, fields, K⟩ = (.ok .none, o'.world loc) := by
  refine ⟨fun loc => ?_, Sha1.init_source mode junk v l d mac vf gx n L t x reset f g hv hl hd hx hf hg fuel depth hdepth K hK fields⟩
  obtain ⟨e, rfl⟩ := Nat.exists_eq_add_of_le' hdepth
  exact (Sha1.starts mode junk fuel (e + 1)).nazo v l d n L t hv hl hd ⟨loc, fields, K⟩ hK

/-- an English White 2 on a 3DS, in compiled code and otherwise -/
example : Sha1.Stands 32 (literal .numba 0x8000) 0x8000 ∧ Sha1.Stands 8 (literal .numpy 0) (Sha1.langNum .english)
    ∧ Sha1.Stands 8 (literal .numpy 2) (Sha1.dsNum .ds3) ∧ Sha1.verOf 0x8000 = .white2 :=
  ⟨⟨by simp [py], by simp [py]⟩, ⟨by simp [py, Sha1.langNum], by simp [py, Sha1.langNum]⟩, ⟨by simp [py, Sha1.dsNum], by simp [py, Sha1.dsNum]⟩, rfl⟩

open Verif.Sha1 in
/-- C133: the methods of `SHA1`. `K` are arrays that are in use beside that of the object; they stay as they are. -/
theorem C133_sha1 (mode : Mode) (junk : Mem) (K : List (String × Arr)) (s : Verif.Sha1.Obj) :
    (∀ button, Calls (Sha1.prog mode junk) mode (Sha1.Rep K) 0 1 "set_button" [.sc false 32 button] s (.ok .none) (setButton s button)) ∧
    (∀ timer0 vcount, Calls (Sha1.prog mode junk) mode (Sha1.Rep K) 0 2 "set_timer0" [.sc false 32 timer0, .sc false 8 vcount] s (.ok .none)
      (setTimer0 s timer0 vcount)) ∧
    (∀ year month day dow, Calls (Sha1.prog mode junk) mode (Sha1.Rep K) 0 1 "set_date"
      [.sc false 16 year, .sc false 8 month, .sc false 8 day, .sc false 8 dow] s ((setDate s year month day dow).map fun _ => .none)
      (Sha1.after s (setDate s year month day dow))) ∧
    (∀ hour minute second, Calls (Sha1.prog mode junk) mode (Sha1.Rep K) 0 1 "set_time"
      [.sc false 8 hour, .sc false 8 minute, .sc false 8 second] s ((setTime s hour minute second).map fun _ => .none)
      (Sha1.after s (setTime s hour minute second))) ∧
    (∀ fuel depth, 3 ≤ depth → ∀ o, Sha1.Rep K s o → ∃ x K' o', Sha1.Rep K' (precompute mode s).1 o' ∧ Sha1.AlphaAt (precompute mode s).2 x K'
      ∧ Sha1.Keeps K K' ∧ ∀ l, run (Sha1.prog mode junk) mode fuel depth "precompute" [] (o.world l) = (.ok (.arr x), o'.world l)) ∧
    (∀ alpha x, Sha1.AlphaAt alpha x K → Calls (Sha1.prog mode junk) mode (Sha1.Rep K) 0 3 "hash_seed" [.arr x] s
      (.ok (.sc false 64 (hashSeed mode s alpha).2)) (hashSeed mode s alpha).1) :=
  ⟨Sha1.setButton_source mode junk K s, Sha1.setTimer0_source mode junk K s, Sha1.setDate_source mode junk K s, Sha1.setTime_source mode junk K s,
    Sha1.precompute_source mode junk K s, fun alpha x h => Sha1.hashSeed_source mode junk K s alpha x h 0⟩

/-- an object beside the arrays of the module -/
example (m : Mem) : Sha1.Rep nazoArrays ⟨m, .dsi⟩ ⟨[("data", .arr "d"), ("ds_type", .sc false 8 1)], ("d", .w32 80 m) :: nazoArrays⟩ := by
  refine ⟨"d", ⟨rfl, rfl⟩, rfl, fun x u h => ?_⟩
  have hx : "d" ≠ x := by
    rintro rfl
    have : get "d" nazoArrays = none := rfl
    rw [this] at h
    cases h
  exact ⟨hx, by simp only [get, if_neg hx, h]⟩

end Verif.Py
