import Verif.Lemmas.Mt
import Verif.Lemmas.MulShift
/-
C12–C18 (Mersenne Twister part): mersenne_twister/mt.py.
-/
namespace Verif.Mt
open Verif.Spec

/-- calls a client can make -/
inductive Op where
  | next
  | advance (adv : BitVec 32)
  | reInit (seed : BitVec 32)
  | shuffle

/-- effect of one call and, for `next`, its result -/
def Op.run (mode : Mode) (s : State) : Op → State × Option (Except PyErr (BitVec 32))
  | .next => ((Mt.next s).1, some (Mt.next s).2)
  | .advance a => (Mt.advance mode s a, none)
  | .reInit seed => (Mt.reInit s seed, none)
  | .shuffle => (Mt.shuffle s, none)

/-- all results of a history of calls -/
def results (mode : Mode) : State → List Op → List (Except PyErr (BitVec 32))
  | _, [] => []
  | s, o :: os =>
    let r := o.run mode s
    r.2.toList ++ results mode r.1 os

/-- The specification machine: a position in the MT19937 stream of a seed. `next` reads and moves by one, `advance`
moves without reading, `re_init` restarts. -/
def specResults : BitVec 32 → Nat → List Op → List (BitVec 32)
  | _, _, [] => []
  | seed, c, .next :: os => mtTemper (mtSeq seed (624 + c)) :: specResults seed (c + 1) os
  | seed, c, .advance a :: os => specResults seed (c + a.toNat) os
  | _, _, .reInit seed :: os => specResults seed 0 os
  | seed, c, .shuffle :: os => specResults seed c os

/-- histories without direct calls of the internal `shuffle`, whose `advance` arguments do not overflow in the given
mode -/
def Op.Plain (mode : Mode) : Op → Prop
  | .advance a => mode = .numba ∨ a.toNat + 624 < 2 ^ 32
  | .shuffle => False
  | _ => True

theorem results_at (mode : Mode) (ops : List Op) (hops : ∀ o ∈ ops, o.Plain mode) :
    ∀ (seed : BitVec 32) (s : State) (c : Nat), At (mtSeq seed) s (624 + c) →
      results mode s ops = (specResults seed c ops).map .ok := by
  induction ops with
  | nil => intros; rfl
  | cons o os ih =>
    intro seed s c h
    have hx := isMT_mtSeq seed
    have ho := hops o List.mem_cons_self
    have ih := ih (fun o' h' => hops o' (List.mem_cons_of_mem _ h'))
    cases o with
    | next =>
      obtain ⟨h1, h2⟩ := next_at hx.rec_ h
      simp only [results, Op.run, specResults, List.map_cons, h2, Option.toList]
      rw [ih seed _ (c + 1) (by rwa [show 624 + (c + 1) = 624 + c + 1 by omega])]
      rfl
    | advance a =>
      have h1 := advance_at hx.rec_ mode a h (by
        rcases ho with h' | h'
        · exact .inl h'
        · right; have := h.idx; omega)
      simp only [results, Op.run, specResults, Option.toList, List.nil_append]
      exact ih seed _ _ (by rwa [show 624 + (c + a.toNat) = 624 + c + a.toNat by omega])
    | reInit sd =>
      simp only [results, Op.run, specResults, Option.toList, List.nil_append]
      refine ih sd _ _ ⟨?_, 0, ?_, ?_⟩
      · exact le_refl 624
      · exact reInit_window s sd (isMT_mtSeq sd)
      · rfl
    | shuffle => exact absurd ho id

theorem new_at (junk : Mem) (seed : BitVec 32) : At (mtSeq seed) (new junk seed) (624 + 0) :=
  ⟨le_refl 624, 0, reInit_window _ seed (isMT_mtSeq seed), rfl⟩

/-! ### C13 -/

/-- C13: whatever the uninitialised array contained, the `n`-th call of `next` on a new object returns the `n`-th output
of MT19937 for that seed. -/
theorem C13_mt19937 (mode : Mode) (junk : Mem) (seed : BitVec 32) (n : Nat) :
    results mode (new junk seed) (List.replicate n .next)
      = (List.range n).map fun i => .ok (mtTemper (mtSeq seed (624 + i))) := by
  rw [results_at mode _ (by intro o ho; rw [List.eq_of_mem_replicate ho]; trivial) seed _ 0 (new_at junk seed)]
  have : ∀ n c, specResults seed c (List.replicate n .next)
      = (List.range n).map fun i => mtTemper (mtSeq seed (624 + (c + i))) := by
    intro n
    induction n with
    | zero => intro c; rfl
    | succ n ih =>
      intro c
      rw [List.replicate_succ, specResults, ih, List.range_succ_eq_map, List.map_cons, List.map_map]
      simp [Function.comp_def, Nat.add_assoc, Nat.add_comm 1]
  rw [this, List.map_map]
  simp [Function.comp_def]

/-- C13: the sequence used above is the only one satisfying the published recurrence. -/
theorem C13_spec_unique (seed : BitVec 32) (x : Nat → BitVec 32) (hx : IsMT19937 seed x) : x = mtSeq seed := by
  funext n
  have hy := isMT_mtSeq seed
  induction n using Nat.strong_induction_on with
  | _ n ih =>
    rcases Nat.eq_zero_or_pos n with rfl | h0
    · rw [hx.zero, hy.zero]
    · rcases Nat.lt_or_ge n 624 with h | h
      · rw [hx.init n h0 h, hy.init n h0 h, ih (n - 1) (by omega)]
      · obtain ⟨k, rfl⟩ := Nat.exists_eq_add_of_le' h
        rw [hx.rec_, hy.rec_, ih (k + 397) (by omega), ih k (by omega), ih (k + 1) (by omega)]

/-! ### C14 -/

/-- C14: any history of `next`, `advance` and `re_init` calls returns exactly the outputs of MT19937 at the stream
positions reached: `advance n` has the effect of discarding `n` outputs, across block boundaries. In numba mode there is
no restriction on the arguments. -/
theorem C14_history (mode : Mode) (junk : Mem) (seed : BitVec 32) (ops : List Op) (hops : ∀ o ∈ ops, o.Plain mode) :
    results mode (new junk seed) ops = (specResults seed 0 ops).map .ok :=
  results_at mode ops hops seed _ 0 (new_at junk seed)

example : ∀ o ∈ [Op.next, .advance 0xFFFFFFFF, .next, .reInit 7, .next], o.Plain .numba := by
  simp [Op.Plain]
example : ∀ o ∈ [Op.next, .advance 0xFFFFFD00, .next, .reInit 7, .next], o.Plain .numpy := by
  simp [Op.Plain]
/-- the specification machine skips exactly the advanced outputs -/
example (seed : BitVec 32) : specResults seed 0 [.advance 1000, .next, .next] =
    [mtTemper (mtSeq seed 1624), mtTemper (mtSeq seed 1625)] := rfl

/-! ### C15 -/

/-- Full C15 for `MersenneTwister`: `advance` does the same in both execution modes. False, see below. -/
def C15_mt_full : Prop := ∀ (s : State) (adv : BitVec 32), s.index ≤ 624 →
  advance .numba s adv = advance .numpy s adv

/-- C15, agreeing range: as long as `adv + index` fits 32 bits, both modes do the same. Missing: the larger distances,
where they differ. -/
theorem C15_mt_partial (s : State) (adv : BitVec 32) (h : adv.toNat + s.index < 2 ^ 32) :
    advance .numba s adv = advance .numpy s adv := by
  simp only [advance, advTotal, Nat.mod_eq_of_lt h]

/-- C15 is false: on a fresh object `advance(0xFFFFFFFF)` ends at index 255 under numba, at index 623 of the
untempered, never shuffled initial block under numpy. -/
theorem C15_mt_disagree (junk : Mem) (seed : BitVec 32) :
    (advance .numba (new junk seed) 0xFFFFFFFF).index = 255 ∧
    (advance .numpy (new junk seed) 0xFFFFFFFF) = { new junk seed with index := 623 } := by
  constructor
  · obtain ⟨h1, b, h2, h3⟩ := advance_at (isMT_mtSeq seed).rec_ .numba 0xFFFFFFFF (new_at junk seed) (.inl rfl)
    have h4 : (advance .numba (new junk seed) 0xFFFFFFFF).index < 624 := by
      obtain ⟨b', h1, h2, h3⟩ := advanceLoop_at (isMT_mtSeq seed).rec_
        (advTotal .numba 0xFFFFFFFF (new junk seed).index) (new junk seed) 0 (reInit_window _ seed (isMT_mtSeq seed))
      simp only [advance]
      rw [Nat.mod_eq_of_lt (by omega)]; exact h2
    rw [show (0xFFFFFFFF : BitVec 32).toNat = 4294967295 from rfl] at h3
    omega
  · have h0 : (new junk seed).index = 624 := rfl
    have h1 : advTotal .numpy 0xFFFFFFFF (new junk seed).index = 623 := by rw [h0]; decide
    have h2 : advanceLoop (new junk seed) 623 = (new junk seed, 623) := by
      unfold advanceLoop; rw [dif_neg (by omega)]
    simp only [advance, h1, h2]

theorem C15_mt_full_false : ¬ C15_mt_full := by
  intro h
  have h1 := h (new ⟨fun _ => 0⟩ 0) 0xFFFFFFFF (le_refl 624)
  obtain ⟨h2, h3⟩ := C15_mt_disagree ⟨fun _ => 0⟩ 0
  rw [h1, h3] at h2
  simp at h2

example : (1000 : BitVec 32).toNat + (new ⟨fun _ => 0⟩ 5).index < 2 ^ 32 := by
  show (1000 : BitVec 32).toNat + 624 < 2 ^ 32
  decide

/-! ### C16 -/

/-- every index used by the loops of `shuffle` is inside the 624-element array -/
theorem C16_static_indices : ∀ ix ∈ idx1 ++ idx2 ++ [idx3], ix.1 < 624 ∧ ix.2.1 < 624 ∧ ix.2.2 < 624 := by
  intro ix h
  simp only [List.mem_append, List.mem_singleton, idx1, idx2, idx3, List.mem_map, List.mem_range, List.mem_range'_1] at h
  rcases h with (⟨i, hi, rfl⟩ | ⟨i, hi, rfl⟩) | rfl <;> refine ⟨?_, ?_, ?_⟩ <;> simp only <;> omega

theorem advanceLoop_lt : ∀ (adv : Nat) (s : State), (advanceLoop s adv).2 < 624 := by
  intro adv
  induction adv using Nat.strong_induction_on with
  | _ adv ih =>
    intro s
    unfold advanceLoop
    by_cases h : 624 ≤ adv
    · rw [dif_pos h]; exact ih _ (by omega) _
    · rw [dif_neg h]; simp only; omega

/-- C16 (invariant, one call): the index stays at most 624, and `next` never accesses the array out of bounds. -/
theorem C16_index_step (mode : Mode) (s : State) (o : Op) (h : s.index ≤ 624) :
    (o.run mode s).1.index ≤ 624 ∧ ∀ r, (o.run mode s).2 = some r → ∃ v, r = .ok v := by
  cases o with
  | next =>
    simp only [Op.run, Option.some.injEq, forall_eq']
    by_cases h624 : s.index = 624
    · have e : next s = ({ state := shuffleMem s.state, index := 1 }, .ok (temper (shuffleMem s.state 0))) := by
        simp [next, h624, shuffle]
      rw [e]; exact ⟨(by omega : 1 ≤ 624), _, rfl⟩
    · have hlt : s.index < 624 := by omega
      have e : next s = ({ s with index := s.index + 1 }, .ok (temper (s.state s.index))) := by
        simp [next, h624, hlt, Nat.mod_eq_of_lt (show s.index + 1 < 65536 by omega)]
      rw [e]; exact ⟨hlt, _, rfl⟩
  | advance a =>
    refine ⟨?_, fun r hr => by cases hr⟩
    simp only [Op.run, advance]
    have := advanceLoop_lt (advTotal mode a s.index) s
    rw [Nat.mod_eq_of_lt (by omega)]; omega
  | reInit sd => exact ⟨le_refl 624, fun r hr => by cases hr⟩
  | shuffle => exact ⟨Nat.zero_le 624, fun r hr => by cases hr⟩

/-- C16: over any history of calls (in both modes, any arguments, including direct calls of `shuffle`) no access is out
of bounds. -/
theorem C16_no_index_error (mode : Mode) (junk : Mem) (seed : BitVec 32) (ops : List Op) :
    ∀ r ∈ results mode (new junk seed) ops, ∃ v, r = .ok v := by
  have key : ∀ (ops : List Op) (s : State), s.index ≤ 624 → ∀ r ∈ results mode s ops, ∃ v, r = .ok v := by
    intro ops
    induction ops with
    | nil => intro s _ r hr; cases hr
    | cons o os ih =>
      intro s hs r hr
      obtain ⟨h1, h2⟩ := C16_index_step mode s o hs
      simp only [results, List.mem_append, Option.mem_toList] at hr
      rcases hr with hr | hr
      · exact h2 r hr
      · exact ih _ h1 r hr
  exact key ops _ (le_refl 624)

/-! ### C17 -/

/-- C17: tempering is the published one and is a bijection on 32-bit words. -/
theorem C17_temper_bijective : (∀ y, temper y = mtTemper y) ∧ Function.Bijective temper :=
  ⟨fun _ => rfl, Finite.injective_iff_bijective.1 temper_injective⟩

/-! ### C18 -/

/-- C18 (MT): `next_rand(maximum)` makes one `next` step and returns `⌊y * maximum / 2^32⌋ < maximum`. -/
theorem C18_mt_next_rand (s : State) (maximum : BitVec 32) (h : s.index ≤ 624) (hm : maximum ≠ 0) :
    ∃ y r, (next s).2 = .ok y ∧ nextRand s maximum = ((next s).1, .ok r) ∧
      r.toNat = y.toNat * maximum.toNat / 2 ^ 32 ∧ r.toNat < maximum.toNat := by
  obtain ⟨y, hy⟩ := (C16_index_step .numba s .next h).2 _ rfl
  refine ⟨y, Lcrng.mulShift y maximum, hy, ?_, Lcrng.mulShift_toNat _ _, ?_⟩
  · simp only [nextRand, hy]; rfl
  · have hpos : 0 < maximum.toNat := by
      rcases Nat.eq_zero_or_pos maximum.toNat with h | h
      · exact absurd (BitVec.eq_of_toNat_eq h) hm
      · exact h
    rw [Lcrng.mulShift_toNat, Nat.div_lt_iff_lt_mul (by norm_num), Nat.mul_comm]
    exact Nat.mul_lt_mul_of_pos_left y.isLt hpos

/-- C18 (MT): `next_rand_mod(maximum)` makes one `next` step and returns `y % maximum < maximum`. -/
theorem C18_mt_next_rand_mod (mode : Mode) (s : State) (maximum : BitVec 32) (h : s.index ≤ 624) (hm : maximum ≠ 0) :
    ∃ y r, (next s).2 = .ok y ∧ nextRandMod mode s maximum = ((next s).1, .ok r) ∧
      r.toNat = y.toNat % maximum.toNat ∧ r.toNat < maximum.toNat := by
  obtain ⟨y, hy⟩ := (C16_index_step .numba s .next h).2 _ rfl
  have hpos : 0 < maximum.toNat := by
    rcases Nat.eq_zero_or_pos maximum.toNat with h | h
    · exact absurd (BitVec.eq_of_toNat_eq h) hm
    · exact h
  refine ⟨y, y % maximum, hy, ?_, BitVec.toNat_umod, ?_⟩
  · simp only [nextRandMod, hy, Except.bind, pyMod, if_neg hm]
  · rw [BitVec.toNat_umod]; exact Nat.mod_lt _ hpos

example : (new ⟨fun _ => 0⟩ 5).index ≤ 624 ∧ (25 : BitVec 32) ≠ 0 := ⟨le_refl 624, by decide⟩

/-! ### C12 -/

/-- two objects that hold the same 624 words and the same index -/
def Same (s t : State) : Prop := s.index = t.index ∧ ∀ j, j < 624 → s.state j = t.state j

theorem foldl_shuffle_congr (l : List (Nat × Nat × Nat))
    (hl : ∀ ix ∈ l, ix.1 < 624 ∧ ix.2.1 < 624 ∧ ix.2.2 < 624) : ∀ (m m' : Mem), (∀ j, j < 624 → m j = m' j) →
    ∀ j, j < 624 → (l.foldl shuffleStep m) j = (l.foldl shuffleStep m') j := by
  induction l with
  | nil => intro m m' h j hj; exact h j hj
  | cons ix l ih =>
    intro m m' h j hj
    rw [List.foldl_cons, List.foldl_cons]
    refine ih (fun ix h => hl ix (List.mem_cons_of_mem _ h)) _ _ ?_ j hj
    intro j hj
    obtain ⟨a1, a2, a3⟩ := hl ix List.mem_cons_self
    simp only [shuffleStep, Mem.set]
    rw [h _ a1, h _ a2, h _ a3, h j hj]

theorem shuffle_same {s t : State} (h : Same s t) : Same (shuffle s) (shuffle t) := by
  refine ⟨rfl, ?_⟩
  have e : ∀ m, shuffleMem m = (idx1 ++ idx2 ++ [idx3]).foldl shuffleStep m := by
    intro m; simp only [shuffleMem, List.foldl_append, List.foldl_cons, List.foldl_nil]
  intro j hj
  rw [shuffle_state, shuffle_state, e, e]
  exact foldl_shuffle_congr _ C16_static_indices _ _ h.2 j hj

theorem advanceLoop_same : ∀ (adv : Nat) {s t : State}, Same s t →
    Same (advanceLoop s adv).1 (advanceLoop t adv).1 ∧ (advanceLoop s adv).2 = (advanceLoop t adv).2 := by
  intro adv
  induction adv using Nat.strong_induction_on with
  | _ adv ih =>
    intro s t h
    unfold advanceLoop
    by_cases h' : 624 ≤ adv
    · rw [dif_pos h', dif_pos h']; exact ih _ (by omega) (shuffle_same h)
    · rw [dif_neg h', dif_neg h']; exact ⟨h, rfl⟩

/-- the part of `next` after the shuffle test -/
def read (s : State) : State × Except PyErr (BitVec 32) :=
  if s.index < 624 then ({ s with index := (s.index + 1) % 2 ^ 16 }, .ok (temper (s.state s.index)))
  else (s, .error .indexError)

theorem next_eq_read (s : State) : next s = read (if s.index = 624 then shuffle s else s) := rfl

theorem read_same {s t : State} (h : Same s t) : Same (read s).1 (read t).1 ∧ (read s).2 = (read t).2 := by
  unfold read
  by_cases hi : s.index < 624
  · rw [if_pos hi, if_pos (h.1 ▸ hi)]
    refine ⟨⟨by simp only [h.1], h.2⟩, ?_⟩
    simp only [← h.1, h.2 _ hi]
  · rw [if_neg hi, if_neg (h.1 ▸ hi)]; exact ⟨h, rfl⟩

theorem next_same {s t : State} (h : Same s t) : Same (next s).1 (next t).1 ∧ (next s).2 = (next t).2 := by
  rw [next_eq_read, next_eq_read]
  by_cases hi : s.index = 624
  · rw [if_pos hi, if_pos (h.1 ▸ hi)]; exact read_same (shuffle_same h)
  · rw [if_neg hi, if_neg (h.1 ▸ hi)]; exact read_same h

theorem seed_same (l : List Nat) : ∀ (a b : Mem × BitVec 32) (n : Nat), (∀ j, j < n → a.1 j = b.1 j) → a.2 = b.2 →
    (∀ j, j < n ∨ j ∈ l → (l.foldl seedStep a).1 j = (l.foldl seedStep b).1 j) := by
  induction l with
  | nil => intro a b n h _ j hj; simpa using h j (by simpa using hj)
  | cons i l ih =>
    intro a b n h hs j hj
    rw [List.foldl_cons, List.foldl_cons]
    -- agreement set grows by the written cell
    have key : ∀ (l : List Nat) (a b : Mem × BitVec 32) (j : Nat), a.2 = b.2 → a.1 j = b.1 j →
        (l.foldl seedStep a).1 j = (l.foldl seedStep b).1 j := by
      intro l
      induction l with
      | nil => intro a b j _ h; exact h
      | cons i l ih =>
        intro a b j hs h
        rw [List.foldl_cons, List.foldl_cons]
        apply ih
        · simp only [seedStep, hs]
        · simp only [seedStep, Mem.set, hs, h]
    have hs' : (seedStep a i).2 = (seedStep b i).2 := by simp only [seedStep, hs]
    rcases hj with hj | hj
    · exact key l _ _ j hs' (by simp only [seedStep, Mem.set, hs, h j hj])
    · rcases List.mem_cons.1 hj with rfl | hj
      · exact key l _ _ j hs' (by simp only [seedStep, Mem.set, hs, if_true])
      · exact ih _ _ 0 (by omega) hs' j (.inr hj)

theorem reInit_same (s t : State) (seed : BitVec 32) : Same (reInit s seed) (reInit t seed) := by
  refine ⟨rfl, fun j hj => ?_⟩
  simp only [reInit]
  have h0 : ∀ j, j < 1 → (s.state.set 0 seed, seed).1 j = (t.state.set 0 seed, seed).1 j := by
    intro j hj
    have : j = 0 := by omega
    subst this; simp
  have hj' : j < 1 ∨ j ∈ List.range' 1 623 := by
    rcases Nat.eq_zero_or_pos j with rfl | h
    · left; omega
    · right; rw [List.mem_range'_1]; omega
  exact seed_same (List.range' 1 623) (s.state.set 0 seed, seed) (t.state.set 0 seed, seed) 1 h0 rfl j hj'

/-- C12 (MT): after any previous life of the object, `re_init(seed)` makes it answer every further history of calls
exactly like a new object with that seed (in both modes, whatever `np.empty` returned). -/
theorem C12_mt_re_init (mode : Mode) (s : State) (junk : Mem) (seed : BitVec 32) (ops : List Op) :
    results mode (reInit s seed) ops = results mode (new junk seed) ops := by
  have key : ∀ (ops : List Op) (s t : State), Same s t → results mode s ops = results mode t ops := by
    intro ops
    induction ops with
    | nil => intros; rfl
    | cons o os ih =>
      intro s t h
      simp only [results]
      cases o with
      | next =>
        obtain ⟨h1, h2⟩ := next_same h
        simp only [Op.run, h2, ih _ _ h1]
      | advance a =>
        have h1 : Same (advance mode s a) (advance mode t a) := by
          obtain ⟨h1, h2⟩ := advanceLoop_same (advTotal mode a s.index) h
          refine ⟨?_, ?_⟩
          · simp only [advance, ← h.1, h2]
          · simp only [advance, ← h.1]; exact h1.2
        simp only [Op.run, ih _ _ h1]
      | reInit sd => simp only [Op.run, ih _ _ (reInit_same s t sd)]
      | shuffle => simp only [Op.run, ih _ _ (shuffle_same h)]
  exact key ops _ _ (reInit_same _ _ seed)

end Verif.Mt
