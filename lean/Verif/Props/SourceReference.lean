import Verif.Props.SourceText
import Verif.Props.Mt
import Verif.Props.Sfmt
import Verif.Props.RngList
/-
C133 with C14, C22 and C36: the text of mt.py and sfmt.py computes MT19937 and SFMT19937, that of rng_list.py a sliding window.
-/
namespace Verif.Py

/-- The text of these methods, one call after the other, with what each call of the method `m` returns or raises. -/
def outputs (P : Prog) (mode : Mode) (fuel depth : Nat) (m : String) : List (String × List Val) → World → List (Except PyErr Val)
  | [], _ => []
  | c :: cs, w => (if c.1 = m then [(run P mode fuel depth c.1 c.2 w).1] else []) ++ outputs P mode fuel depth m cs (run P mode fuel depth c.1 c.2 w).2

namespace Mt

/-- the method and the arguments of a call of C14 -/
def opText : Verif.Mt.Op → String × List Val
  | .next => ("next", [])
  | .advance a => ("advance", [.sc false 32 a])
  | .reInit s => ("re_init", [.sc false 32 s])
  | .shuffle => ("shuffle", [])

theorem outputs_at (mode : Mode) (fuel depth : Nat) (hf : 2 ^ 24 ≤ fuel) (hd : 3 ≤ depth) (l : List (String × Val)) (ops : List Verif.Mt.Op) :
    ∀ s o, Rep s o → outputs prog mode fuel depth "next" (ops.map opText) (o.world l) = (Verif.Mt.results mode s ops).map fun r => r.map (wide mode) := by
  induction ops with
  | nil => intros; rfl
  | cons op ops ih =>
    intro s o h
    obtain ⟨c1, c2, c3, c4, -⟩ := C133_mt mode s
    cases op with
    | next =>
      obtain ⟨o', h1, e⟩ := c3 fuel depth (by omega) (by omega) o h
      simp only [List.map_cons, opText, outputs, e l, ih _ o' h1, Verif.Mt.results, Verif.Mt.Op.run, Option.toList, if_true, List.map_append, List.map_nil]
    | advance a =>
      have hi : s.index < 65536 := by
        obtain ⟨ix, -, hx⟩ := h
        have := ix.isLt
        omega
      have ha : Verif.Mt.advTotal mode a s.index / 624 + 1 ≤ fuel := by
        have : Verif.Mt.advTotal mode a s.index < 2 ^ 32 + 65536 := by
          have := a.isLt
          cases mode <;> simp only [Verif.Mt.advTotal] <;> omega
        omega
      obtain ⟨o', h1, e⟩ := c4 a fuel depth ha (by omega) o h
      simp only [List.map_cons, opText, outputs, e l, ih _ o' h1, Verif.Mt.results, Verif.Mt.Op.run, Option.toList, List.nil_append,
        if_neg (show ¬ "advance" = "next" by decide)]
    | reInit sd =>
      obtain ⟨o', h1, e⟩ := c1 sd fuel depth (by omega) (by omega) o h
      simp only [List.map_cons, opText, outputs, e l, ih _ o' h1, Verif.Mt.results, Verif.Mt.Op.run, Option.toList, List.nil_append,
        if_neg (show ¬ "re_init" = "next" by decide)]
    | shuffle =>
      obtain ⟨o', h1, e⟩ := c2 fuel depth (by omega) (by omega) o h
      simp only [List.map_cons, opText, outputs, e l, ih _ o' h1, Verif.Mt.results, Verif.Mt.Op.run, Option.toList, List.nil_append,
        if_neg (show ¬ "shuffle" = "next" by decide)]

end Mt

namespace Sfmt

/-- the method and the arguments of a call of C22 -/
def opText : Verif.Sfmt.Op → String × List Val
  | .next => ("next", [])
  | .advance a => ("advance", [.sc false 32 a])
  | .reInit s => ("re_init", [.sc false 32 s])

theorem outputs_at (mode : Mode) (fuel depth : Nat) (hf : 2 ^ 24 ≤ fuel) (hd : 4 ≤ depth) (l : List (String × Val)) (ops : List Verif.Sfmt.Op)
    (hops : ∀ o ∈ ops, o.Plain mode) : ∀ (seed : BitVec 32) (c : Nat) s o, Verif.Sfmt.At (Spec.sfmtSeq seed) s (312 + c) → Rep mode s o →
      outputs prog mode fuel depth "next" (ops.map opText) (o.world l) = (Verif.Sfmt.specResults seed c ops).map fun r => .ok (.sc false 64 r) := by
  induction ops with
  | nil => intros; rfl
  | cons op ops ih =>
    intro seed c s o ha h
    have ho := hops op List.mem_cons_self
    have ih := ih (fun o' h' => hops o' (List.mem_cons_of_mem _ h'))
    have hx := Spec.isSFMT_sfmtSeq seed
    obtain ⟨c1, -, c3, c4, -⟩ := C133_sfmt mode s
    cases op with
    | next =>
      obtain ⟨o', h1, e⟩ := c3 fuel depth (by omega) (by omega) o h
      obtain ⟨a1, a2⟩ := Verif.Sfmt.next_at hx.rec_ ha
      simp only [List.map_cons, opText, outputs, e l, if_true, Verif.Sfmt.specResults, a2, Except.map, Verif.Sfmt.out64_eq]
      rw [ih seed (c + 1) _ o' (by rwa [show 312 + (c + 1) = 312 + c + 1 by omega]) h1]
      rfl
    | advance a =>
      have hi := ha.idx
      have hb : Verif.Sfmt.advTotal mode a s.index / 624 + 1 ≤ fuel := by
        have : Verif.Sfmt.advTotal mode a s.index < 2 ^ 33 + 65536 := by
          have := a.isLt
          cases mode <;> simp only [Verif.Sfmt.advTotal] <;> omega
        omega
      obtain ⟨o', h1, e⟩ := c4 a fuel depth hb (by omega) o h
      have a1 := Verif.Sfmt.advance_at hx.rec_ mode a ha (by
        rcases ho with h' | h'
        · exact .inl h'
        · right; omega)
      simp only [List.map_cons, opText, outputs, e l, List.nil_append, if_neg (show ¬ "advance" = "next" by decide), Verif.Sfmt.specResults]
      exact ih seed _ _ o' (by rwa [show 312 + (c + a.toNat) = 312 + c + a.toNat by omega]) h1
    | reInit sd =>
      obtain ⟨o', h1, e⟩ := c1 sd fuel depth (by omega) (by omega) o h
      simp only [List.map_cons, opText, outputs, e l, List.nil_append, if_neg (show ¬ "re_init" = "next" by decide), Verif.Sfmt.specResults]
      exact ih sd 0 _ o' (Verif.Sfmt.reInit_at s sd) h1

end Sfmt

namespace RngList
open Verif.RngList (Op runOps stepOp)

/-- the method and the arguments of a call of C36 -/
def opText : Op → String × List Val
  | .get => ("get_value", [])
  | .advance n => ("advance", [.sc false 32 n])
  | .advanceState => ("advance_state", [])
  | .advanceStates n => ("advance_states", [.sc false 32 n])
  | .reInit => ("re_init", [])

theorem outputs_eq {w v size : Nat} {G : Type} {enc : G → Arr} {next : G → G × BitVec v} {f : List Val → M Val} (mode : Mode) (A : Array' w size)
    (hs : Verif.RngList.sizeOk size = true) (h32 : size ≤ 2 ^ 32) (hf : Draws f enc next) (fuel depth : Nat) (hd : 3 ≤ depth) (l : List (String × Val)) (ops : List Op) :
    ∀ s o, Rep A mode enc s o → outputs (prog mode size f) mode fuel depth "get_value" (ops.map opText) (o.world l)
      = (runOps mode next size s ops).map fun x => .ok (.sc false w x) := by
  induction ops with
  | nil => intros; rfl
  | cons op ops ih =>
    intro s o h
    obtain ⟨c1, c2, c3, c4, c5⟩ := C133_rnglist mode A hs h32 hf s
    cases op with
    | get =>
      obtain ⟨o', h1, e⟩ := c5 fuel depth (by omega) (by omega) o h
      simp only [List.map_cons, opText, outputs, e l, ih _ o' h1, runOps, stepOp, if_true, List.cons_append, List.nil_append]
    | advance n =>
      obtain ⟨o', h1, e⟩ := c4 n fuel depth (by omega) (by omega) o h
      simp only [List.map_cons, opText, outputs, e l, ih _ o' h1, runOps, stepOp, if_neg (show ¬ "advance" = "get_value" by decide), List.nil_append]
    | advanceState =>
      obtain ⟨o', h1, e⟩ := c2 fuel depth (by omega) (by omega) o h
      simp only [List.map_cons, opText, outputs, e l, ih _ o' h1, runOps, stepOp, if_neg (show ¬ "advance_state" = "get_value" by decide), List.nil_append]
    | advanceStates n =>
      obtain ⟨o', h1, e⟩ := c3 n fuel depth (by omega) (by omega) o h
      simp only [List.map_cons, opText, outputs, e l, ih _ o' h1, runOps, stepOp, if_neg (show ¬ "advance_states" = "get_value" by decide), List.nil_append]
    | reInit =>
      obtain ⟨o', h1, e⟩ := c1 fuel depth (by omega) (by omega) o h
      simp only [List.map_cons, opText, outputs, e l, ih _ o' h1, runOps, stepOp, if_neg (show ¬ "re_init" = "get_value" by decide), List.nil_append]

end RngList

/-- C133 with C36: the text of the class made by `build_rnglist`, compiled (sizes up to 65536) or not. Whatever the list contains, after `re_init()` (which fills it from
the generator `g`) every history of calls returns the generator's own outputs at the positions given by the sliding window. -/
theorem C133_rnglist_window {w v size : Nat} {G : Type} {enc : G → Arr} {next : G → G × BitVec v} {f : List Val → M Val} (mode : Mode)
    (A : RngList.Array' w size) (hs : RngList.sizeOk size = true) (hfit : Verif.RngList.Fits mode size) (hf : RngList.Draws f enc next)
    (s : RngList.State w G) (o : Obj) (h : RngList.Rep A mode enc s o) (ops : List Verif.RngList.Op) (l : List (String × Val)) (fuel depth : Nat) (hd : 3 ≤ depth) :
    outputs (RngList.prog mode size f) mode fuel depth "get_value" (("re_init", []) :: ops.map RngList.opText) (o.world l)
      = (Verif.RngList.Window.run size (Verif.RngList.cached w next s.rng) { base := 0, pos := 0 } ops).map fun x => .ok (.sc false w x) := by
  have h32 : size ≤ 2 ^ 32 := by
    cases mode <;> simp only [Verif.RngList.Fits] at hfit <;> omega
  have e := RngList.outputs_eq mode A hs h32 hf fuel depth hd l (.reInit :: ops) s o h
  refine e.trans ?_
  obtain ⟨k, rfl⟩ := (Verif.RngList.sizeOk_iff size).1 hs
  simp only [Verif.RngList.runOps, Verif.RngList.stepOp]
  rw [Verif.RngList.rep_run mode next s.rng k hfit ops _ _ (Verif.RngList.rep_reInit next s.rng _ (Nat.two_pow_pos k) s 0 rfl)]

/-- a list of 8 words and a generator kept in one word -/
example (next : BitVec 32 → BitVec 32 × BitVec 32) (m : RngList.Cells 32) (g : BitVec 32) :
    RngList.sizeOk 8 = true ∧ Verif.RngList.Fits .numba 8 ∧ RngList.Draws (drawWord next) (fun g => .w32 1 ⟨fun _ => g⟩) next ∧
    RngList.Rep (RngList.array32 8) .numpy (fun g => .w32 1 ⟨fun _ => g⟩) ⟨g, m, 0, 0⟩
      (RngList.obj (RngList.array32 8) (fun g => .w32 1 ⟨fun _ => g⟩) g m (.int 0) (.int 0)) :=
  ⟨by decide, by simp [Verif.RngList.Fits], fun g w h => by simp [drawWord, h], _, _, rfl, ⟨by simp, .inl rfl⟩, ⟨by simp, .inl rfl⟩, by simp, by simp⟩

/-- C133 with C14: the text of mt.py, compiled or not. Whatever the array of the object contains, after `re_init(seed)` any history of `next`, `advance` and `re_init`
returns the outputs of MT19937 at the positions reached; `advance n` discards `n` of them. (Outside compiled code, if the sums in `advance` fit in 32 bits.) -/
theorem C133_mt_reference (mode : Mode) (seed : BitVec 32) (ops : List Verif.Mt.Op) (hops : ∀ o ∈ ops, o.Plain mode) (s : Mt.State) (o : Obj) (h : Mt.Rep s o)
    (l : List (String × Val)) (fuel depth : Nat) (hf : 2 ^ 24 ≤ fuel) (hd : 3 ≤ depth) :
    outputs Mt.prog mode fuel depth "next" (("re_init", [.sc false 32 seed]) :: ops.map Mt.opText) (o.world l)
      = (Verif.Mt.specResults seed 0 ops).map fun y => .ok (wide mode y) := by
  have e := Mt.outputs_at mode fuel depth hf hd l (.reInit seed :: ops) s o h
  refine e.trans ?_
  have k : Verif.Mt.results mode s (.reInit seed :: ops) = Verif.Mt.results mode (Verif.Mt.reInit s seed) ops := by
    simp only [Verif.Mt.results, Verif.Mt.Op.run, Option.toList, List.nil_append]
  rw [k, Verif.Mt.results_at mode ops hops seed _ 0 ⟨le_refl 624, 0, Verif.Mt.reInit_window s seed (Spec.isMT_mtSeq seed), rfl⟩, List.map_map]
  rfl

/-- C133 with C22: the same for the text of sfmt.py (with the Python text of `sfmt_shuffle`) and SFMT19937. -/
theorem C133_sfmt_reference (mode : Mode) (seed : BitVec 32) (ops : List Verif.Sfmt.Op) (hops : ∀ o ∈ ops, o.Plain mode) (s : Sfmt.State) (o : Obj)
    (h : Sfmt.Rep mode s o) (l : List (String × Val)) (fuel depth : Nat) (hf : 2 ^ 24 ≤ fuel) (hd : 4 ≤ depth) :
    outputs Sfmt.prog mode fuel depth "next" (("re_init", [.sc false 32 seed]) :: ops.map Sfmt.opText) (o.world l)
      = (Verif.Sfmt.specResults seed 0 ops).map fun y => .ok (.sc false 64 y) := by
  obtain ⟨o', h1, e⟩ := (C133_sfmt mode s).1 seed fuel depth (by omega) (by omega) o h
  simp only [outputs, e l, List.nil_append, if_neg (show ¬ "re_init" = "next" by decide)]
  exact Sfmt.outputs_at mode fuel depth hf hd l ops hops seed 0 _ o' (Verif.Sfmt.reInit_at s seed) h1

/-- new objects, whatever memory contains, and a history for each -/
example (m : Mem) : Mt.Rep ⟨m, 624⟩ (Mt.obj m 624) ∧ Sfmt.Rep .numba ⟨m, 624⟩ (Sfmt.obj m (.sc false 16 624))
    ∧ (∀ o ∈ [Verif.Mt.Op.next, .advance 0xFFFFFFFF, .next, .reInit 7, .next], o.Plain .numba)
    ∧ ∀ o ∈ [Verif.Sfmt.Op.next, .advance 0x7FFFFD00, .next, .reInit 7, .next], o.Plain .numpy :=
  ⟨⟨624, rfl, rfl⟩, ⟨_, rfl, .inl ⟨624, rfl, rfl⟩⟩, by simp [Verif.Mt.Op.Plain], by simp [Verif.Sfmt.Op.Plain]⟩

end Verif.Py
