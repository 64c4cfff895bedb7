import Verif.Lemmas.Sfmt
/-
C12, C15, C19–C23: mersenne_twister/sfmt.py.
-/
namespace Verif.Sfmt
open Verif.Spec

/-- calls a client can make -/
inductive Op where
  | next
  | advance (adv : BitVec 32)
  | reInit (seed : BitVec 32)

/-- effect of one call and, for `next`, its result -/
def Op.run (mode : Mode) (s : State) : Op → State × Option (Except PyErr (BitVec 64))
  | .next => ((Sfmt.next s).1, some (Sfmt.next s).2)
  | .advance a => (Sfmt.advance mode s a, none)
  | .reInit seed => (Sfmt.reInit s seed, none)

/-- all results of a history of calls -/
def results (mode : Mode) : State → List Op → List (Except PyErr (BitVec 64))
  | _, [] => []
  | s, o :: os =>
    let r := o.run mode s
    r.2.toList ++ results mode r.1 os

/-- The specification machine: a position in the SFMT19937 stream of 64-bit outputs of a seed. -/
def specResults : BitVec 32 → Nat → List Op → List (BitVec 64)
  | _, _, [] => []
  | seed, c, .next :: os => sfmtOut seed c :: specResults seed (c + 1) os
  | seed, c, .advance a :: os => specResults seed (c + a.toNat) os
  | _, _, .reInit seed :: os => specResults seed 0 os

/-- histories whose `advance` arguments do not overflow 32 bits when doubled, needed in numpy mode only -/
def Op.Plain (mode : Mode) : Op → Prop
  | .advance a => mode = .numba ∨ a.toNat * 2 + 624 < 2 ^ 32
  | _ => True

theorem out64_eq (seed : BitVec 32) (c : Nat) : out64 (sfmtSeq seed) (312 + c) = sfmtOut seed c := by
  rw [out64, sfmtOut, show (312 + c) / 2 = 156 + c / 2 by omega, show (312 + c) % 2 = c % 2 by omega]

theorem reInit_index (s : State) (seed : BitVec 32) : (reInit s seed).index = 624 := by rw [reInit]

theorem reInit_at (s : State) (seed : BitVec 32) : At (sfmtSeq seed) (reInit s seed) (312 + 0) := by
  refine ⟨?_, ?_, 0, reInit_window _ seed (isSFMT_sfmtSeq seed), ?_⟩ <;> rw [reInit_index]

theorem new_at (junk : Mem) (seed : BitVec 32) : At (sfmtSeq seed) (new junk seed) (312 + 0) := reInit_at _ seed

theorem results_at (mode : Mode) (ops : List Op) (hops : ∀ o ∈ ops, o.Plain mode) :
    ∀ (seed : BitVec 32) (s : State) (c : Nat), At (sfmtSeq seed) s (312 + c) →
      results mode s ops = (specResults seed c ops).map .ok := by
  induction ops with
  | nil => intros; rfl
  | cons o os ih =>
    intro seed s c h
    have hx := isSFMT_sfmtSeq seed
    have ho := hops o List.mem_cons_self
    have ih := ih (fun o' h' => hops o' (List.mem_cons_of_mem _ h'))
    cases o with
    | next =>
      obtain ⟨h1, h2⟩ := next_at hx.rec_ h
      simp only [results, Op.run, specResults, List.map_cons, h2, Option.toList]
      rw [ih seed _ (c + 1) (by rwa [show 312 + (c + 1) = 312 + c + 1 by omega]), out64_eq]
      rfl
    | advance a =>
      have h1 := advance_at hx.rec_ mode a h (by
        rcases ho with h' | h'
        · exact .inl h'
        · right; have := h.idx; omega)
      simp only [results, Op.run, specResults, Option.toList, List.nil_append]
      exact ih seed _ _ (by rwa [show 312 + (c + a.toNat) = 312 + c + a.toNat by omega])
    | reInit sd =>
      simp only [results, Op.run, specResults, Option.toList, List.nil_append]
      exact ih sd _ _ (reInit_at s sd)

/-! ### C19 -/

/-- C19: for every content of the 624-word array (and of any memory around it) the loops of the hand-written LLVM IR
terminate and leave exactly the memory the Python loops leave. -/
theorem C19_ir_eq_python (m : Mem) : ∀ fuel, 122 ≤ fuel → irShuffle fuel m = some (pyShuffle m) :=
  fun fuel hf => irShuffle_eq fuel hf m

/-- C19: every group index, and every index read, of either version is inside the array. -/
theorem C19_indices : ∀ q ∈ pyIdx, q.1 + 3 < 624 ∧ q.2.1 + 3 < 624 ∧ q.2.2.1 + 3 < 624 ∧ q.2.2.2 + 3 < 624 := by
  intro q hq
  simp only [pyIdx, List.mem_append, List.mem_cons, List.mem_map, List.mem_range', List.not_mem_nil, or_false] at hq
  rcases hq with ((rfl | rfl) | ⟨i, ⟨k, hk, rfl⟩, rfl⟩) | ⟨i, ⟨k, hk, rfl⟩, rfl⟩ <;>
    refine ⟨?_, ?_, ?_, ?_⟩ <;> simp only <;> omega

example : (irShuffle 122 ⟨fun i => BitVec.ofNat 32 i⟩).isSome = true := by rw [C19_ir_eq_python _ _ le_rfl]; rfl

/-! ### C20 -/

/-- C20: whatever the uninitialised array contained, the `n`-th call of `next` on a new object returns the `n`-th 64-bit
output of SFMT19937 for that seed. -/
theorem C20_sfmt19937 (mode : Mode) (junk : Mem) (seed : BitVec 32) (n : Nat) :
    results mode (new junk seed) (List.replicate n .next) = (List.range n).map fun i => .ok (sfmtOut seed i) := by
  rw [results_at mode _ (by intro o ho; rw [List.eq_of_mem_replicate ho]; trivial) seed _ 0 (new_at junk seed)]
  have : ∀ n c, specResults seed c (List.replicate n .next) = (List.range n).map fun i => sfmtOut seed (c + i) := by
    intro n
    induction n with
    | zero => intro c; rfl
    | succ n ih =>
      intro c
      rw [List.replicate_succ, specResults, ih, List.range_succ_eq_map, List.map_cons, List.map_map]
      simp [Function.comp_def, Nat.add_assoc, Nat.add_comm 1]
  rw [this, List.map_map]
  simp [Function.comp_def]

/-- C20: the sequence used above is the only one satisfying the published recursion. -/
theorem C20_spec_unique (seed : BitVec 32) (x : Nat → BitVec 128) (hx : IsSFMT19937 seed x) : x = sfmtSeq seed := by
  funext n
  have hy := isSFMT_sfmtSeq seed
  induction n using Nat.strong_induction_on with
  | _ n ih =>
    rcases Nat.eq_zero_or_pos n with rfl | h0
    · rw [hx.zero, hy.zero]
    · rcases Nat.lt_or_ge n 156 with h | h
      · rw [hx.init n h0 h, hy.init n h0 h]
      · obtain ⟨k, rfl⟩ := Nat.exists_eq_add_of_le' h
        rw [hx.rec_, hy.rec_, ih k (by omega), ih (k + 122) (by omega), ih (k + 154) (by omega), ih (k + 155) (by omega)]

/-! ### C21 -/

theorem bitParity_xor_one (v : BitVec 128) : bitParity ((v ^^^ 1) &&& parityVector) = !bitParity (v &&& parityVector) := by
  have h : ∀ w : BitVec 128, bitParity w = xorUpto 128 w.getLsbD := fun _ => rfl
  have e : (v ^^^ 1) &&& parityVector = (v &&& parityVector) ^^^ 1 := by
    apply BitVec.eq_of_getLsbD_eq
    intro i hi
    rcases Nat.eq_zero_or_pos i with rfl | h0
    · simp only [BitVec.getLsbD_and, BitVec.getLsbD_xor]
      have h1 : (1 : BitVec 128).getLsbD 0 = true := rfl
      have h2 : parityVector.getLsbD 0 = true := rfl
      rw [h1, h2]; simp
    · have h1 : (1 : BitVec 128).getLsbD i = false := by
        have := BitVec.getLsbD_one (w := 128) (i := i)
        rw [show (1 : BitVec 128) = 1#128 from rfl, this]; simp; omega
      simp only [BitVec.getLsbD_and, BitVec.getLsbD_xor, h1, Bool.xor_false]
  rw [e, h, h]
  have e2 : ((v &&& parityVector) ^^^ 1).getLsbD = fun i => (v &&& parityVector).getLsbD i ^^ (1 : BitVec 128).getLsbD i := by
    funext i; rw [BitVec.getLsbD_xor]
  rw [e2, xorUpto_xor, show xorUpto 128 (BitVec.getLsbD 1) = true from by decide +kernel, Bool.xor_true]

/-- the four words at the head of the array, as the published certification reads them -/
def head128 (s : State) : BitVec 128 := s.state 3 ++ s.state 2 ++ s.state 1 ++ s.state 0

theorem holds_append {m : Mem} {v : BitVec 128} (h : Holds m 0 v) : m 3 ++ m 2 ++ m 1 ++ m 0 = v := by
  have h0 := h 0 (by omega); have h1 := h 1 (by omega); have h2 := h 2 (by omega); have h3 := h 3 (by omega)
  simp only [Nat.zero_add] at h0 h1 h2 h3
  rw [h0, h1, h2, h3]
  apply BitVec.eq_of_getLsbD_eq
  intro i hi
  rw [append4_getLsbD]
  simp only [lane_getLsbD]
  split
  · rename_i h; simp [h]
  · split
    · simp only [show i - 32 < 32 by omega, decide_true, Bool.true_and]; congr 1; omega
    · split
      · simp only [show i - 64 < 32 by omega, decide_true, Bool.true_and]; congr 1; omega
      · simp only [show i - 96 < 32 by omega, decide_true, Bool.true_and]; congr 1; omega

/-- C21: after initialisation with any seed the state satisfies the period certification condition (odd parity against
the certification vector), so the published period guarantee applies; and at most bit 0 of word 0 differs from the
plain initialisation words. -/
theorem C21_certified (s : State) (seed : BitVec 32) :
    bitParity (head128 (reInit s seed) &&& parityVector) = true ∧
    ((reInit s seed).state 0 = seed ∨ (reInit s seed).state 0 = seed ^^^ 1) ∧
    ∀ j, 0 < j → j < 624 → (reInit s seed).state j = initWord seed j := by
  have hx := isSFMT_sfmtSeq seed
  have hw := reInit_window s seed hx
  refine ⟨?_, ?_, ?_⟩
  · rw [head128, holds_append (hw 0 (by omega)), Nat.add_zero, hx.zero, certify]
    cases h : bitParity (pack (initWord seed) 0 &&& parityVector)
    · simp only [Bool.false_eq_true, if_false, bitParity_xor_one, h, Bool.not_false]
    · simp only [if_true, h]
  · have h0 := hw 0 (by omega) 0 (by omega)
    simp only [Nat.mul_zero, Nat.add_zero] at h0
    rw [hx.zero, certify] at h0
    have hp : lane (pack (initWord seed) 0) 0 = seed := pack_lane _ _ _ (by omega)
    have h1 : lane 1 0 = 1 := by decide
    split at h0
    · left; rw [hp] at h0; exact h0
    · right; rw [lane_xor, hp, h1] at h0; exact h0
  · intro j h0 h1
    have h := hw (j / 4) (by omega) (j % 4) (by omega)
    rw [show 4 * (j / 4) + j % 4 = j by omega] at h
    rw [h, Nat.zero_add]
    rcases Nat.eq_zero_or_pos (j / 4) with h4 | h4
    · rw [h4, hx.zero, certify_lane _ _ (by omega), if_neg (by omega), pack_lane _ _ _ (by omega)]
      exact congrArg (initWord seed) (by omega)
    · rw [hx.init _ h4 (by omega), pack_lane _ _ _ (by omega)]
      exact congrArg (initWord seed) (by omega)

/-! ### C22 -/

/-- C22: any history of `next`, `advance` and `re_init` calls returns exactly the outputs of SFMT19937 at the stream
positions reached: `advance n` discards `n` 64-bit outputs. In numba mode there is no restriction on the arguments. -/
theorem C22_history (mode : Mode) (junk : Mem) (seed : BitVec 32) (ops : List Op) (hops : ∀ o ∈ ops, o.Plain mode) :
    results mode (new junk seed) ops = (specResults seed 0 ops).map .ok :=
  results_at mode ops hops seed _ 0 (new_at junk seed)

example : ∀ o ∈ [Op.next, .advance 0xFFFFFFFF, .next, .reInit 7, .next], o.Plain .numba := by
  simp [Op.Plain]
example : ∀ o ∈ [Op.next, .advance 0x7FFFFD00, .next, .reInit 7, .next], o.Plain .numpy := by
  simp [Op.Plain]
example (seed : BitVec 32) : specResults seed 0 [.advance 1000, .next, .next] = [sfmtOut seed 1000, sfmtOut seed 1001] :=
  rfl

/-- C22: no history of calls, in either mode and with any arguments, makes an out-of-bounds access. -/
theorem C22_no_index_error (mode : Mode) (junk : Mem) (seed : BitVec 32) (ops : List Op) :
    ∀ r ∈ results mode (new junk seed) ops, ∃ v, r = .ok v := by
  have hloop : ∀ (adv : Nat) (s : State), (advanceLoop s adv).2 < 624 ∧ (advanceLoop s adv).2 % 2 = adv % 2 := by
    intro adv
    induction adv using Nat.strong_induction_on with
    | _ adv ih =>
      intro s
      unfold advanceLoop
      by_cases h : 624 ≤ adv
      · rw [dif_pos h]
        obtain ⟨h1, h2⟩ := ih (adv - 624) (by omega) (shuffle s)
        exact ⟨h1, by omega⟩
      · rw [dif_neg h]; exact ⟨by simp only; omega, rfl⟩
  have key : ∀ (ops : List Op) (s : State), s.index ≤ 624 → s.index % 2 = 0 →
      ∀ r ∈ results mode s ops, ∃ v, r = .ok v := by
    intro ops
    induction ops with
    | nil => intro s _ _ r hr; cases hr
    | cons o os ih =>
      intro s hs he r hr
      simp only [results, List.mem_append, Option.mem_toList] at hr
      cases o with
      | next =>
        have hread : ∀ t : State, t.index < 624 → t.index % 2 = 0 →
            (read t).1.index ≤ 624 ∧ (read t).1.index % 2 = 0 ∧ ∃ v, (read t).2 = .ok v := by
          intro t h1 h2
          rw [read_eq t (by omega)]
          exact ⟨by simp only; omega, by simp only; omega, _, rfl⟩
        have hn : (next s).1.index ≤ 624 ∧ (next s).1.index % 2 = 0 ∧ ∃ v, (next s).2 = .ok v := by
          rw [next_eq_read]
          by_cases h : s.index = 624
          · rw [if_pos h]; exact hread _ (by rw [shuffle_index]; omega) (by rw [shuffle_index])
          · rw [if_neg h]; exact hread _ (by omega) he
        rcases hr with hr | hr
        · simp only [Op.run, Option.some.injEq] at hr
          rw [← hr]; exact hn.2.2
        · exact ih _ hn.1 hn.2.1 r hr
      | advance a =>
        rcases hr with hr | hr
        · cases hr
        · refine ih _ ?_ ?_ r hr
          · simp only [Op.run, advance]
            have := (hloop (advTotal mode a s.index) s).1
            rw [Nat.mod_eq_of_lt (by omega)]; omega
          · simp only [Op.run, advance]
            have := hloop (advTotal mode a s.index) s
            have h2 : advTotal mode a s.index % 2 = 0 := by cases mode <;> simp only [advTotal] <;> omega
            omega
      | reInit sd =>
        rcases hr with hr | hr
        · cases hr
        · exact ih _ (by simp only [Op.run, reInit_index]; omega) (by simp only [Op.run, reInit_index]) r hr
  exact key ops _ (by rw [new, reInit_index]) (by rw [new, reInit_index])

/-! ### C15 -/

/-- Full C15 for the SFMT: `advance` does the same in both execution modes. False, see below. -/
def C15_sfmt_full : Prop := ∀ (s : State) (adv : BitVec 32), s.index ≤ 624 →
  advance .numba s adv = advance .numpy s adv

/-- C15, agreeing range: as long as `2*adv + index` fits 32 bits, both modes do the same. Missing: larger distances. -/
theorem C15_sfmt_partial (s : State) (adv : BitVec 32) (h : adv.toNat * 2 + s.index < 2 ^ 32) :
    advance .numba s adv = advance .numpy s adv := by
  simp only [advance, advTotal, Nat.mod_eq_of_lt h]

/-- C15 is false from half of the 32-bit range on: on an object whose index is 0, `advance(2^31)` is a no-op under
numpy but moves to index `2^32 mod 624 = 256` of the block number 6882960 under numba. -/
theorem C15_sfmt_disagree (m : Mem) :
    (advance .numba ⟨m, 0⟩ 0x80000000).index = 256 ∧ advance .numpy ⟨m, 0⟩ 0x80000000 = ⟨m, 0⟩ := by
  have hloop : ∀ (adv : Nat) (s : State), (advanceLoop s adv).2 = adv % 624 := by
    intro adv
    induction adv using Nat.strong_induction_on with
    | _ adv ih =>
      intro s
      unfold advanceLoop
      by_cases h : 624 ≤ adv
      · rw [dif_pos h, ih (adv - 624) (by omega) (shuffle s)]; omega
      · rw [dif_neg h]; simp only; omega
  constructor
  · simp only [advance, hloop]
    decide +kernel
  · have h1 : advTotal .numpy 0x80000000 0 = 0 := by decide
    have h2 : advanceLoop ⟨m, 0⟩ 0 = (⟨m, 0⟩, 0) := by unfold advanceLoop; rw [dif_neg (by omega)]
    simp only [advance, h1, h2]

theorem C15_sfmt_full_false : ¬ C15_sfmt_full := by
  intro h
  have h1 := h ⟨⟨fun _ => 0⟩, 0⟩ 0x80000000 (by simp only; omega)
  obtain ⟨h2, h3⟩ := C15_sfmt_disagree ⟨fun _ => 0⟩
  rw [h1, h3] at h2
  simp at h2

example : (1000 : BitVec 32).toNat * 2 + (⟨⟨fun _ => 0⟩, 624⟩ : State).index < 2 ^ 32 := by decide

/-! ### C23 -/

/-- C23: `next_rand(maximum)` consumes exactly one 64-bit output and returns it modulo `maximum`; with a maximum of 0 it
raises (numba) or returns 0 (numpy), having consumed the output in both cases. -/
theorem C23_next_rand (mode : Mode) (seed : BitVec 32) (s : State) (c : Nat) (maximum : BitVec 64)
    (h : At (sfmtSeq seed) s (312 + c)) :
    (nextRand mode s maximum).1 = (next s).1 ∧
    (maximum ≠ 0 → ∃ r, (nextRand mode s maximum).2 = .ok r ∧ r.toNat = (sfmtOut seed c).toNat % maximum.toNat ∧
      r.toNat < maximum.toNat) ∧
    (maximum = 0 → (nextRand mode s maximum).2 = match mode with
      | .numba => .error .zeroDivision | .numpy => .ok 0) := by
  obtain ⟨-, h2⟩ := next_at (isSFMT_sfmtSeq seed).rec_ h
  refine ⟨rfl, ?_, ?_⟩
  · intro hm
    have hpos : 0 < maximum.toNat := by
      rcases Nat.eq_zero_or_pos maximum.toNat with h | h
      · exact absurd (BitVec.eq_of_toNat_eq h) hm
      · exact h
    refine ⟨sfmtOut seed c % maximum, ?_, BitVec.toNat_umod, ?_⟩
    · simp only [nextRand, h2, Except.bind, pyMod, if_neg hm, out64_eq]
    · rw [BitVec.toNat_umod]; exact Nat.mod_lt _ hpos
  · intro hm
    simp only [nextRand, h2, Except.bind, pyMod, if_pos hm]
    cases mode <;> rfl

example : At (sfmtSeq 5) (new ⟨fun _ => 0⟩ 5) (312 + 0) := new_at _ _

/-- C23 for an object in any state, also one whose words no seed gives. -/
theorem C23_every_state (mode : Mode) (s : State) (maximum : BitVec 64) (hi : s.index ≤ 624) (he : s.index % 2 = 0) :
    ∃ y, (next s).2 = .ok y ∧ (nextRand mode s maximum).1 = (next s).1 ∧
      (maximum ≠ 0 → ∃ r, (nextRand mode s maximum).2 = .ok r ∧ r.toNat = y.toNat % maximum.toNat ∧ r.toNat < maximum.toNat) ∧
      (maximum = 0 → (nextRand mode s maximum).2 = match mode with
        | .numba => .error .zeroDivision | .numpy => .ok 0) := by
  obtain ⟨y, hy⟩ : ∃ y, (next s).2 = .ok y := by
    have key : ∀ t : State, t.index ≤ 622 → t.index % 2 = 0 → ∃ y, (next t).2 = .ok y := by
      intro t h1 h2
      have h3 : t.index ≠ 624 := by omega
      have h4 : t.index < 624 := by omega
      have h5 : (t.index + 1) % 2 ^ 16 < 624 := by omega
      simp only [next, h3, h4, h5, if_false, if_true]
      exact ⟨_, rfl⟩
    by_cases h : s.index = 624
    · obtain ⟨y, hy⟩ := key (shuffle s) (by rw [shuffle_index]; omega) (by rw [shuffle_index])
      refine ⟨y, ?_⟩
      have h0 : (shuffle s).index ≠ 624 := by rw [shuffle_index]; decide
      generalize hs : shuffle s = t at h0 hy
      rw [← hy]
      simp only [next, h, h0, hs, if_true, if_false]
    · exact key s (by omega) he
  refine ⟨y, hy, rfl, ?_, ?_⟩
  · intro hm
    have hpos : 0 < maximum.toNat := by
      rcases Nat.eq_zero_or_pos maximum.toNat with h | h
      · exact absurd (BitVec.eq_of_toNat_eq h) hm
      · exact h
    refine ⟨y % maximum, ?_, BitVec.toNat_umod, ?_⟩
    · simp only [nextRand, hy, Except.bind, pyMod, if_neg hm]
    · rw [BitVec.toNat_umod]; exact Nat.mod_lt _ hpos
  · intro hm
    simp only [nextRand, hy, Except.bind, pyMod, if_pos hm]
    cases mode <;> rfl

example : (⟨⟨fun i => BitVec.ofNat 32 i⟩, 6⟩ : State).index ≤ 624 ∧ (⟨⟨fun i => BitVec.ofNat 32 i⟩, 6⟩ : State).index % 2 = 0 := by
  decide

/-! ### C12 -/

/-- two objects in the same block of the same stream, with the same index -/
structure Twin (x : Nat → BitVec 128) (s t : State) : Prop where
  idx : s.index ≤ 624
  even : s.index % 2 = 0
  eq : s.index = t.index
  block : ∃ b, Window x s.state (156 * b) ∧ Window x t.state (156 * b)

theorem twin_advanceLoop {x : Nat → BitVec 128} (hx : Rec x) : ∀ (adv : Nat) (s t : State) (b : Nat),
    Window x s.state (156 * b) → Window x t.state (156 * b) →
    (advanceLoop s adv).2 = (advanceLoop t adv).2 ∧ (advanceLoop s adv).2 < 624 ∧
    (advanceLoop s adv).2 % 2 = adv % 2 ∧
    ∃ b', Window x (advanceLoop s adv).1.state (156 * b') ∧ Window x (advanceLoop t adv).1.state (156 * b') := by
  intro adv
  induction adv using Nat.strong_induction_on with
  | _ adv ih =>
    intro s t b hs ht
    unfold advanceLoop
    by_cases h : 624 ≤ adv
    · rw [dif_pos h, dif_pos h]
      obtain ⟨h1, h2, h3, h4⟩ := ih (adv - 624) (by omega) (shuffle s) (shuffle t) (b + 1) (at_shuffle hx hs)
        (at_shuffle hx ht)
      exact ⟨h1, h2, by omega, h4⟩
    · rw [dif_neg h, dif_neg h]
      exact ⟨rfl, by simp only; omega, rfl, b, hs, ht⟩

theorem twin_results (mode : Mode) (ops : List Op) : ∀ (seed : BitVec 32) (s t : State), Twin (sfmtSeq seed) s t →
    results mode s ops = results mode t ops := by
  induction ops with
  | nil => intros; rfl
  | cons o os ih =>
    intro seed s t h
    obtain ⟨hi, he, heq, b, hs, ht⟩ := h
    have hx := (isSFMT_sfmtSeq seed).rec_
    simp only [results]
    cases o with
    | next =>
      have key : ∀ (s t : State) (b : Nat), s.index < 624 → s.index % 2 = 0 → s.index = t.index →
          Window (sfmtSeq seed) s.state (156 * b) → Window (sfmtSeq seed) t.state (156 * b) →
          Twin (sfmtSeq seed) (read s).1 (read t).1 ∧ (read s).2 = (read t).2 := by
        intro s t b h1 h2 h3 h4 h5
        have e1 := (read_at h1 h2 h4).2
        have e2 := (read_at (h3 ▸ h1) (h3 ▸ h2) h5).2
        refine ⟨?_, by rw [e1, e2, h3]⟩
        rw [read_eq s (by omega), read_eq t (by omega)]
        exact ⟨by simp only; omega, by simp only; omega, by simp only; omega, b, h4, h5⟩
      have hn : Twin (sfmtSeq seed) (next s).1 (next t).1 ∧ (next s).2 = (next t).2 := by
        rw [next_eq_read, next_eq_read]
        by_cases h : s.index = 624
        · rw [if_pos h, if_pos (heq ▸ h)]
          exact key _ _ (b + 1) (by rw [shuffle_index]; omega) (by rw [shuffle_index])
            (by rw [shuffle_index, shuffle_index]) (at_shuffle hx hs) (at_shuffle hx ht)
        · rw [if_neg h, if_neg (heq ▸ h)]
          exact key _ _ b (by omega) he heq hs ht
      simp only [Op.run, hn.2, ih seed _ _ hn.1]
    | advance a =>
      have h2 : advTotal mode a s.index % 2 = 0 := by cases mode <;> simp only [advTotal] <;> omega
      obtain ⟨g1, g2, g3, b', g4, g5⟩ := twin_advanceLoop hx (advTotal mode a s.index) s t b hs ht
      have : Twin (sfmtSeq seed) (advance mode s a) (advance mode t a) := by
        refine ⟨?_, ?_, ?_, b', ?_, ?_⟩
        · simp only [advance]; rw [Nat.mod_eq_of_lt (by omega)]; omega
        · simp only [advance]; omega
        · simp only [advance, ← heq, g1]
        · simpa only [advance] using g4
        · simpa only [advance, ← heq] using g5
      simp only [Op.run, ih seed _ _ this]
    | reInit sd =>
      have : Twin (sfmtSeq sd) (reInit s sd) (reInit t sd) :=
        ⟨by rw [reInit_index], by rw [reInit_index], by rw [reInit_index, reInit_index], 0,
          reInit_window _ sd (isSFMT_sfmtSeq sd), reInit_window _ sd (isSFMT_sfmtSeq sd)⟩
      simp only [Op.run, ih sd _ _ this]

/-- C12 (SFMT): after any previous life of the object, `re_init(seed)` makes it answer every further history of calls
exactly like a new object with that seed (in both modes, whatever `np.empty` returned). -/
theorem C12_sfmt_re_init (mode : Mode) (s : State) (junk : Mem) (seed : BitVec 32) (ops : List Op) :
    results mode (reInit s seed) ops = results mode (new junk seed) ops :=
  twin_results mode ops seed _ _ ⟨by rw [reInit_index], by rw [reInit_index], by rw [new, reInit_index, reInit_index], 0,
    reInit_window _ seed (isSFMT_sfmtSeq seed), reInit_window _ seed (isSFMT_sfmtSeq seed)⟩

end Verif.Sfmt
