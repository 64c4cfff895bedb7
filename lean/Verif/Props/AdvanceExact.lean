import Verif.Props.SfmtPeriod
/-
C15, exact: where `advance` leaves a Mersenne Twister in either execution mode, after any history of calls, and for which
distances the two modes agree. Without numba the sum of the distance and the index wraps at 2^32, so the generator ends
2^32 words short of the place asked for.
-/
namespace Verif.Mt
open Verif.Spec

/-- the object after a history of calls -/
def stateAfter (mode : Mode) (s : State) (ops : List Op) : State := ops.foldl (fun s o => (o.run mode s).1) s

/-- where `advance` ends, in terms of the sum it computes -/
theorem advance_total_at {x : Nat → BitVec 32}
    (hx : ∀ k, x (k + 624) = x (k + 397) ^^^ mtTwist (x k) (x (k + 1))) {s : State} {b : Nat} (mode : Mode) (a : BitVec 32)
    (hw : Window x s.state (624 * b)) (t c : Nat) (ht : advTotal mode a s.index = t) (hc : 624 * b + t = c) :
    At x (advance mode s a) c := by
  obtain ⟨b', h1, h2, h3⟩ := advanceLoop_at hx t s b hw
  have e : (advance mode s a).index = (advanceLoop s t).2 := by
    simp only [advance, ht]
    exact Nat.mod_eq_of_lt (by omega)
  have e2 : (advance mode s a).state = (advanceLoop s t).1.state := by simp only [advance, ht]
  exact ⟨by rw [e]; omega, b', by rw [e2]; exact h1, by rw [e]; omega⟩

theorem advance_numpy_at {x : Nat → BitVec 32}
    (hx : ∀ k, x (k + 624) = x (k + 397) ^^^ mtTwist (x k) (x (k + 1))) {s : State} {c : Nat} (a : BitVec 32)
    (h : At x s c) : At x (advance .numpy s a)
      (if a.toNat + s.index < 2 ^ 32 then c + a.toNat else c + a.toNat - 2 ^ 32) := by
  split
  · rename_i hlt; exact advance_at hx .numpy a h (.inr hlt)
  · rename_i hge
    obtain ⟨hidx, b, hw, hc⟩ := h
    have ha := a.isLt
    refine advance_total_at hx .numpy a hw (a.toNat + s.index - 2 ^ 32) _ ?_ (by omega)
    simp only [advTotal]; omega

theorem reInit_at (s : State) (seed : BitVec 32) : At (mtSeq seed) (reInit s seed) (624 + 0) :=
  ⟨le_refl 624, 0, reInit_window s seed (isMT_mtSeq seed), rfl⟩

theorem reach (mode : Mode) (ops : List Op) (hops : ∀ o ∈ ops, o ≠ .shuffle) : ∀ (seed : BitVec 32) (s : State) (c : Nat),
    At (mtSeq seed) s c → ∃ seed' c', At (mtSeq seed') (stateAfter mode s ops) c' := by
  induction ops with
  | nil => intro seed s c h; exact ⟨seed, c, h⟩
  | cons o os ih =>
    intro seed s c h
    have ih := ih (fun o' h' => hops o' (List.mem_cons_of_mem _ h'))
    have hx := isMT_mtSeq seed
    cases o with
    | next => exact ih seed _ _ (next_at hx.rec_ h).1
    | advance a =>
      cases mode with
      | numba => exact ih seed _ _ (advance_at hx.rec_ .numba a h (.inl rfl))
      | numpy => exact ih seed _ _ (advance_numpy_at hx.rec_ a h)
    | reInit sd =>
      rw [stateAfter, List.foldl_cons]
      simp only [Op.run]
      exact ih sd _ _ (reInit_at s sd)
    | shuffle => exact absurd rfl (hops _ List.mem_cons_self)

theorem results_next (mode : Mode) (seed : BitVec 32) : ∀ (n : Nat) (s : State) (c : Nat), At (mtSeq seed) s c →
    results mode s (List.replicate n .next) = (List.range n).map fun j => .ok (mtTemper (mtSeq seed (c + j))) := by
  intro n
  induction n with
  | zero => intros; rfl
  | succ n ih =>
    intro s c h
    obtain ⟨h1, h2⟩ := next_at (isMT_mtSeq seed).rec_ h
    rw [List.replicate_succ, results, List.range_succ_eq_map, List.map_cons, List.map_map]
    simp only [Op.run, h2, Option.toList]
    rw [ih _ _ h1]
    simp only [List.singleton_append, Nat.add_zero, Function.comp_def, Nat.succ_eq_add_one]
    congr 1
    apply List.map_congr_left
    intro j _
    rw [show c + 1 + j = c + (j + 1) by omega]

/-- C15, exact: after any history of calls (in either mode, with any arguments) the object stands at some place `c` of the
word sequence of MT19937. A call of `advance a` and `n` calls of `next` give the `n` outputs from place `c + a` on under
numba; without numba they are those from `c + a` on if `a + index` fits 32 bits, and otherwise those from 2^32 places
before. -/
theorem C15_mt_exact (mode : Mode) (junk : Mem) (seed : BitVec 32) (ops : List Op) (hops : ∀ o ∈ ops, o ≠ .shuffle) :
    ∃ seed' c, (stateAfter mode (new junk seed) ops).index ≤ c ∧ ∀ (a : BitVec 32) (n : Nat),
      results .numba (stateAfter mode (new junk seed) ops) (.advance a :: List.replicate n .next)
        = (List.range n).map (fun j => .ok (mtTemper (mtSeq seed' (c + a.toNat + j)))) ∧
      results .numpy (stateAfter mode (new junk seed) ops) (.advance a :: List.replicate n .next)
        = (List.range n).map (fun j => .ok (mtTemper (mtSeq seed'
            ((if a.toNat + (stateAfter mode (new junk seed) ops).index < 2 ^ 32 then c + a.toNat
              else c + a.toNat - 2 ^ 32) + j)))) := by
  obtain ⟨seed', c, h⟩ := reach mode ops hops seed _ _ (new_at junk seed)
  refine ⟨seed', c, ?_, fun a n => ⟨?_, ?_⟩⟩
  · obtain ⟨_, b, _, hc⟩ := h; omega
  · exact results_next .numba seed' n _ _ (advance_at (isMT_mtSeq seed').rec_ .numba a h (.inl rfl))
  · exact results_next .numpy seed' n _ _ (advance_numpy_at (isMT_mtSeq seed').rec_ a h)

theorem small (N : Nat) (hN : N = 2 ^ 19937 - 1) : 2 ^ 40 < N := by
  have h : 2 ^ 41 ≤ 2 ^ 19937 := Nat.pow_le_pow_right (by omega) (by omega)
  rw [hN]
  generalize 2 ^ 19937 = M at *
  omega

/-- C15, exact: the outputs that follow `advance a` are the same in both modes if and only if `a + index` fits 32 bits.
(Otherwise they would repeat after 2^32 calls, against C99.) -/
theorem C15_mt_iff (mode : Mode) (junk : Mem) (seed : BitVec 32) (ops : List Op) (hops : ∀ o ∈ ops, o ≠ .shuffle)
    (a : BitVec 32) :
    (∀ n, results .numba (stateAfter mode (new junk seed) ops) (.advance a :: List.replicate n .next)
        = results .numpy (stateAfter mode (new junk seed) ops) (.advance a :: List.replicate n .next)) ↔
      a.toNat + (stateAfter mode (new junk seed) ops).index < 2 ^ 32 := by
  obtain ⟨seed', c, hc, h⟩ := C15_mt_exact mode junk seed ops hops
  constructor
  · intro heq
    by_contra hge
    have key : ∀ k, 624 + (c + a.toNat) ≤ k → mtSeq seed' (k + 2 ^ 32) = mtSeq seed' k := by
      intro k hk
      obtain ⟨j, rfl⟩ : ∃ j, k = c + a.toNat - 2 ^ 32 + j := ⟨k - (c + a.toNat - 2 ^ 32), by omega⟩
      have e := heq (j + 1)
      rw [(h a (j + 1)).1, (h a (j + 1)).2, if_neg hge] at e
      have e := congrArg (fun l => l[j]?) e
      simp only [List.getElem?_map, List.getElem?_range (Nat.lt_succ_self j), Option.map_some] at e
      injection e with e
      injection e with e
      rw [← C17_temper_bijective.1, ← C17_temper_bijective.1] at e
      have := temper_injective e
      rwa [show c + a.toNat + j = c + a.toNat - 2 ^ 32 + j + 2 ^ 32 by omega] at this
    obtain ⟨N, hN⟩ : ∃ N, N = 2 ^ 19937 - 1 := ⟨_, rfl⟩
    have hs := small N hN
    have := MtPeriod.C99_least ⟨fun _ => 0⟩ seed' N hN (2 ^ 32) (c + a.toNat) (fun n hn => by
      rw [MtPeriod.output_iff, ← Nat.add_assoc]
      exact key (624 + n) (by omega))
    have := Nat.le_of_dvd (by omega) this
    omega
  · intro hlt n
    rw [(h a n).1, (h a n).2, if_pos hlt]

/-- on an object that has produced 10 outputs `advance(-3)` goes back by three without numba -/
example : (4294967293#32).toNat + 10 ≥ 2 ^ 32 ∧ ∀ o ∈ List.replicate 10 Op.next, o ≠ .shuffle := by
  refine ⟨by decide, fun o ho => ?_⟩
  rw [List.eq_of_mem_replicate ho]; exact Op.noConfusion

end Verif.Mt

namespace Verif.Sfmt
open Verif.Spec

/-- the object after a history of calls -/
def stateAfter (mode : Mode) (s : State) (ops : List Op) : State := ops.foldl (fun s o => (o.run mode s).1) s

theorem advance_numpy_at {x : Nat → BitVec 128} (hx : Rec x) {s : State} {c : Nat} (a : BitVec 32) (h : At x s c) :
    At x (advance .numpy s a) (c + a.toNat - 2 ^ 31 * ((a.toNat * 2 + s.index) / 2 ^ 32)) := by
  obtain ⟨hidx, heven, b, hw, hc⟩ := h
  obtain ⟨t, ht⟩ : ∃ t, t = (a.toNat * 2 + s.index) % 2 ^ 32 := ⟨_, rfl⟩
  obtain ⟨b', h1, h2, h3⟩ := advanceLoop_at hx t s b hw
  have e : (advance .numpy s a).index = (advanceLoop s t).2 := by
    simp only [advance, advTotal, ← ht]
    exact Nat.mod_eq_of_lt (by omega)
  have e2 : (advance .numpy s a).state = (advanceLoop s t).1.state := by simp only [advance, advTotal, ← ht]
  refine ⟨by rw [e]; omega, by rw [e]; omega, b', by rw [e2]; exact h1, by rw [e]; omega⟩

theorem reach (mode : Mode) (ops : List Op) : ∀ (seed : BitVec 32) (s : State) (c : Nat),
    At (sfmtSeq seed) s c → ∃ seed' c', At (sfmtSeq seed') (stateAfter mode s ops) c' := by
  induction ops with
  | nil => intro seed s c h; exact ⟨seed, c, h⟩
  | cons o os ih =>
    intro seed s c h
    have hx := isSFMT_sfmtSeq seed
    cases o with
    | next => exact ih seed _ _ (next_at hx.rec_ h).1
    | advance a =>
      cases mode with
      | numba => exact ih seed _ _ (advance_at hx.rec_ .numba a h (.inl rfl))
      | numpy => exact ih seed _ _ (advance_numpy_at hx.rec_ a h)
    | reInit sd => exact ih sd _ _ (reInit_at s sd)

/-- the 64-bit halves of the 128-bit words, from the initialisation words on -/
def half (seed : BitVec 32) (c : Nat) : BitVec 64 := (sfmtSeq seed (c / 2)).extractLsb' (64 * (c % 2)) 64

theorem results_next (mode : Mode) (seed : BitVec 32) : ∀ (n : Nat) (s : State) (c : Nat), At (sfmtSeq seed) s c →
    results mode s (List.replicate n .next) = (List.range n).map fun j => .ok (half seed (c + j)) := by
  intro n
  induction n with
  | zero => intros; rfl
  | succ n ih =>
    intro s c h
    obtain ⟨h1, h2⟩ := next_at (isSFMT_sfmtSeq seed).rec_ h
    rw [List.replicate_succ, results, List.range_succ_eq_map, List.map_cons, List.map_map]
    simp only [Op.run, h2, Option.toList]
    rw [ih _ _ h1]
    simp only [List.singleton_append, Nat.add_zero, Function.comp_def, Nat.succ_eq_add_one]
    congr 1
    apply List.map_congr_left
    intro j _
    rw [show c + 1 + j = c + (j + 1) by omega]

/-- C15, exact, for the SFMT: the place `c` counts 64-bit outputs. Without numba `advance a` ends `2^31 q` outputs short of
the place asked for, `q` (0, 1 or 2) being the number of times `2 a + index` wraps. -/
theorem C15_sfmt_exact (mode : Mode) (junk : Mem) (seed : BitVec 32) (ops : List Op) :
    ∃ seed' c, (stateAfter mode (new junk seed) ops).index ≤ 2 * c ∧ ∀ (a : BitVec 32) (n : Nat),
      results .numba (stateAfter mode (new junk seed) ops) (.advance a :: List.replicate n .next)
        = (List.range n).map (fun j => .ok (half seed' (c + a.toNat + j))) ∧
      results .numpy (stateAfter mode (new junk seed) ops) (.advance a :: List.replicate n .next)
        = (List.range n).map (fun j => .ok (half seed'
            (c + a.toNat - 2 ^ 31 * ((a.toNat * 2 + (stateAfter mode (new junk seed) ops).index) / 2 ^ 32) + j))) := by
  obtain ⟨seed', c, h⟩ := reach mode ops seed _ _ (new_at junk seed)
  refine ⟨seed', c, ?_, fun a n => ⟨?_, ?_⟩⟩
  · obtain ⟨_, _, b, _, hc⟩ := h; omega
  · exact results_next .numba seed' n _ _ (advance_at (isSFMT_sfmtSeq seed').rec_ .numba a h (.inl rfl))
  · exact results_next .numpy seed' n _ _ (advance_numpy_at (isSFMT_sfmtSeq seed').rec_ a h)

/-- C15, exact, for the SFMT: the outputs that follow `advance a` are the same in both modes if and only if `2 a + index`
fits 32 bits. -/
theorem C15_sfmt_iff (mode : Mode) (junk : Mem) (seed : BitVec 32) (ops : List Op) (a : BitVec 32) :
    (∀ n, results .numba (stateAfter mode (new junk seed) ops) (.advance a :: List.replicate n .next)
        = results .numpy (stateAfter mode (new junk seed) ops) (.advance a :: List.replicate n .next)) ↔
      a.toNat * 2 + (stateAfter mode (new junk seed) ops).index < 2 ^ 32 := by
  obtain ⟨seed', c, hc, h⟩ := C15_sfmt_exact mode junk seed ops
  have ha := a.isLt
  constructor
  · intro heq
    by_contra hge
    obtain ⟨q, hq⟩ : ∃ q, q = (a.toNat * 2 + (stateAfter mode (new junk seed) ops).index) / 2 ^ 32 := ⟨_, rfl⟩
    have hq1 : 0 < q := by omega
    have hidx : (stateAfter mode (new junk seed) ops).index ≤ 624 := by
      obtain ⟨_, _, h⟩ := reach mode ops seed _ _ (new_at junk seed)
      exact h.idx
    have hq2 : q ≤ 2 := by omega
    have hle : 2 ^ 31 * q ≤ c + a.toNat := by omega
    have key : ∀ k, c + a.toNat ≤ k → half seed' (k + 2 ^ 31 * q) = half seed' k := by
      intro k hk
      obtain ⟨j, rfl⟩ : ∃ j, k = c + a.toNat - 2 ^ 31 * q + j := ⟨k - (c + a.toNat - 2 ^ 31 * q), by omega⟩
      have e := heq (j + 1)
      rw [(h a (j + 1)).1, (h a (j + 1)).2, ← hq] at e
      have e := congrArg (fun l => l[j]?) e
      simp only [List.getElem?_map, List.getElem?_range (Nat.lt_succ_self j), Option.map_some] at e
      injection e with e
      injection e with e
      rwa [show c + a.toNat + j = c + a.toNat - 2 ^ 31 * q + j + 2 ^ 31 * q by omega] at e
    obtain ⟨N, hN⟩ : ∃ N, N = 2 ^ 19937 - 1 := ⟨_, rfl⟩
    have hs := Mt.small N hN
    have := SfmtPeriod.C101_least ⟨fun _ => 0⟩ seed' N hN (2 ^ 31 * q) (c + a.toNat) (fun n hn => by
      rw [SfmtPeriod.output_eq, SfmtPeriod.output_eq, ← Nat.add_assoc]
      exact congrArg Except.ok (key (312 + n) (by omega)))
    have := Nat.le_of_dvd (by omega) this
    omega
  · intro hlt n
    rw [(h a n).1, (h a n).2, Nat.div_eq_of_lt hlt, Nat.mul_zero, Nat.sub_zero]

/-- the largest distance wraps twice on an object that has produced 10 outputs -/
example : (4294967295#32).toNat * 2 + 20 ≥ 2 ^ 32 ∧ ((4294967295#32).toNat * 2 + 20) / 2 ^ 32 = 2 := by decide

end Verif.Sfmt
