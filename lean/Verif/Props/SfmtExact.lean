import Verif.Lemmas.SfmtSeedSound
import Verif.Props.SfmtPeriod
/-
C110: the exact period of the SFMT for every seed.
-/
namespace Verif.SfmtPeriod
open Verif.Spec Verif.MtPeriod Verif.Gf2

/-- `f` repeats with period `p` from some point on -/
def Repeats {α : Type} (f : Nat → α) (p : Nat) : Prop := ∃ M, ∀ n, M ≤ n → f (n + p) = f n

/-! ### words -/

theorem flat_inj {x y : Nat → BitVec 128} (h : flat x = flat y) : x = y := by
  funext k
  apply BitVec.eq_of_getLsbD_eq
  intro j hj
  have := congrFun h (128 * k + j)
  rw [flat_at x k j hj, flat_at y k j hj] at this
  exact z_inj this

theorem flat_shift (x : Nat → BitVec 128) (m : Nat) : (step ^ m) (flat x) = flat fun k => x (k + m) := by
  funext i
  rw [step_pow, flat, flat, show (i + 128 * m) / 128 = i / 128 + m by omega, show (i + 128 * m) % 128 = i % 128 by omega]

theorem step_iff (x : Nat → BitVec 128) (m : Nat) : (step ^ m) (flat x) = flat x ↔ ∀ k, x (k + m) = x k := by
  rw [flat_shift]
  exact ⟨fun h k => congrFun (flat_inj h) k, fun h => by rw [show (fun k => x (k + m)) = x from funext h]⟩

/-- the periods of the words are multiples of 2^19937 - 1 -/
theorem words_least (seed : BitVec 32) (N : Nat) (hN : N + 1 = 2 ^ 19937) (hp : N.Prime) (m : Nat)
    (h : ∀ k, sfmtSeq seed (k + m) = sfmtSeq seed k) : N ∣ m := by
  obtain ⟨g, hg, g0, g1, hk⟩ := exists_poly
  have hd := hg (N + 1) hN
  clear hg hN
  refine no_short_period g (N + 1) N rfl hp hd g0 g1 (chk (sfmtSeq seed)) (hk _ (isSFMT_sfmtSeq seed).rec_) ?_ m 0 ?_
  · intro h0
    have := congrFun h0 0
    rw [chk_zero] at this
    exact absurd this (by decide)
  · intro k _
    rw [chk, chk, h]

/-! ### an odd period is impossible -/

section odd
variable {x : Nat → BitVec 128} (hx : ∀ k, x (k + 156) = sfmtRec (x k) (x (k + 122)) (x (k + 154)) (x (k + 155)))
include hx

theorem rec_bit (k j : Nat) (hj : j < 128) (hj32 : 21 ≤ j % 32) (h8 : 8 ≤ j) : (x (k + 156)).getLsbD j =
    ((x k).getLsbD j ^^ (x k).getLsbD (j - 8) ^^ (decide (j < 120) && (x (k + 154)).getLsbD (j + 8)) ^^ (x (k + 155)).getLsbD (j - 18)) := by
  rw [hx k, sfmtRec]
  simp only [BitVec.getLsbD_xor, BitVec.getLsbD_and, BitVec.getLsbD_shiftLeft, BitVec.getLsbD_ushiftRight]
  rw [lanewise_getLsbD _ _ _ hj, lanewise_getLsbD _ _ _ hj, BitVec.getLsbD_ushiftRight, BitVec.getLsbD_shiftLeft,
    BitVec.getLsbD_of_ge _ (11 + j % 32) (by omega), Sfmt.lane_getLsbD]
  rw [decide_eq_true hj, decide_eq_false (show ¬ j < 8 by omega), decide_eq_true (show j % 32 < 32 by omega),
    decide_eq_false (show ¬ j % 32 < 18 by omega), decide_eq_true (show j % 32 - 18 < 32 by omega),
    show 32 * (j / 32) + (j % 32 - 18) = j - 18 by omega, Nat.add_comm 8 j]
  by_cases h : j < 120
  · rw [decide_eq_true h]; simp
  · rw [decide_eq_false h, BitVec.getLsbD_of_ge _ (j + 8) (by omega)]; simp

/-- the halves of the words cannot change places -/
theorem odd_zero (y : Nat → BitVec 128) (hy : ∀ k, y (k + 156) = sfmtRec (y k) (y (k + 122)) (y (k + 154)) (y (k + 155)))
    (hlo : ∀ k j, j < 64 → (y k).getLsbD j = (x k).getLsbD (64 + j)) (hhi : ∀ k j, j < 64 → (y k).getLsbD (64 + j) = (x (k + 1)).getLsbD j)
    (k : Nat) : (x (k + 155)).getLsbD 0 = false := by
  have h1 := rec_bit hy k 56 (by omega) (by omega) (by omega)
  have h2 := rec_bit hx k 120 (by omega) (by omega) (by omega)
  rw [hlo _ 56 (by omega), hlo _ 56 (by omega), hlo _ (56 - 8) (by omega), hlo _ (56 - 18) (by omega), hhi (k + 154) 0 (by omega)] at h1
  rw [h1] at h2
  have e : k + 154 + 1 = k + 155 := by omega
  rw [e] at h2
  simp only [Nat.reduceAdd, Nat.reduceSub, Nat.reduceLT, decide_true, decide_false, Bool.true_and, Bool.false_and, Bool.xor_false] at h2
  revert h2
  generalize (x (k + 155)).getLsbD 0 = b
  generalize (x k).getLsbD 120 = b1
  generalize (x k).getLsbD 112 = b2
  generalize (x (k + 155)).getLsbD 102 = b3
  revert b b1 b2 b3
  decide

end odd

/-- the lowest bits of the words are not all zero from any point on -/
theorem low_bits (seed : BitVec 32) (M : Nat) (h : ∀ k, (sfmtSeq seed (k + M)).getLsbD 0 = false) : False := by
  have hx := (isSFMT_sfmtSeq seed).rec_
  have hr : Run (flat fun k => sfmtSeq seed (k + M)) := rel_words fun k => by
    have := hx (k + M)
    rwa [show k + M + 156 = k + 156 + M by omega, show k + M + 122 = k + 122 + M by omega, show k + M + 154 = k + 154 + M by omega,
      show k + M + 155 = k + 155 + M by omega] at this
  have h0 := track_zero hr (by
    funext k
    have e := flat_at (fun k => sfmtSeq seed (k + M)) k 0 (by omega)
    rw [h k] at e
    rw [track, Nat.zero_add]
    exact e)
  obtain ⟨C, hC⟩ : ∃ C, C = 2 ^ 19968 := ⟨_, rfl⟩
  obtain ⟨p, p0, -, hp⟩ := periodic hx C hC
  clear hC
  have hp' : ∀ n k, sfmtSeq seed k = sfmtSeq seed (p * n + k) := by
    intro n
    induction n with
    | zero => intro k; rw [Nat.mul_zero, Nat.zero_add]
    | succ n ih => intro k; rw [hp k, ih, Nat.mul_succ, Nat.add_assoc]
  have hz : ∀ k, sfmtSeq seed (k + M) = 0#128 := by
    intro k
    apply BitVec.eq_of_getLsbD_eq
    intro j hj
    have := congrFun h0 (128 * k + j)
    rw [flat_at _ k j hj] at this
    rw [BitVec.getLsbD_zero]
    exact z_inj (this.trans rfl)
  have h1 := chk_zero seed
  have hle : M ≤ p * M := Nat.le_mul_of_pos_left M p0
  rw [chk, hp' M 0, show p * M + 0 = p * M - M + M by omega, hz] at h1
  exact absurd h1 (by decide +kernel)

theorem odd_period (seed : BitVec 32) (m : Nat)
    (h : ∀ n, Sfmt.out64 (sfmtSeq seed) (312 + (n + (2 * m + 1))) = Sfmt.out64 (sfmtSeq seed) (312 + n)) : False := by
  have hx := (isSFMT_sfmtSeq seed).rec_
  have sh : ∀ c k, (fun k => sfmtSeq seed (k + c)) (k + 156) = sfmtRec ((fun k => sfmtSeq seed (k + c)) k)
      ((fun k => sfmtSeq seed (k + c)) (k + 122)) ((fun k => sfmtSeq seed (k + c)) (k + 154)) ((fun k => sfmtSeq seed (k + c)) (k + 155)) := by
    intro c k
    have := hx (k + c)
    rwa [show k + c + 156 = k + 156 + c by omega, show k + c + 122 = k + 122 + c by omega, show k + c + 154 = k + 154 + c by omega,
      show k + c + 155 = k + 155 + c by omega] at this
  refine low_bits seed (155 + 156) fun k => ?_
  have := odd_zero (x := fun k => sfmtSeq seed (k + 156)) (sh 156) (fun k => sfmtSeq seed (k + (156 + m + 1))) (sh (156 + m + 1)) (fun k j hj => ?_) (fun k j hj => ?_) k
  · rwa [show k + 155 + 156 = k + (155 + 156) by omega] at this
  · have e := h (2 * k + 1)
    rw [Sfmt.out64, Sfmt.out64, show (312 + (2 * k + 1 + (2 * m + 1))) / 2 = k + (156 + m + 1) by omega,
      show (312 + (2 * k + 1 + (2 * m + 1))) % 2 = 0 by omega, show (312 + (2 * k + 1)) / 2 = k + 156 by omega,
      show (312 + (2 * k + 1)) % 2 = 1 by omega] at e
    have e := congrArg (fun w => w.getLsbD j) e
    simpa [BitVec.getLsbD_extractLsb', hj] using e
  · have e := h (2 * (k + 1))
    rw [Sfmt.out64, Sfmt.out64, show (312 + (2 * (k + 1) + (2 * m + 1))) / 2 = k + (156 + m + 1) by omega,
      show (312 + (2 * (k + 1) + (2 * m + 1))) % 2 = 1 by omega, show (312 + 2 * (k + 1)) / 2 = k + 1 + 156 by omega,
      show (312 + 2 * (k + 1)) % 2 = 0 by omega] at e
    have e := congrArg (fun w => w.getLsbD j) e
    simpa [BitVec.getLsbD_extractLsb', hj] using e

/-! ### outputs -/

/-- a period from some point on is a period from the start -/
theorem from_start (junk : Mem) (seed : BitVec 32) (p : Nat) (h : Repeats (output junk seed) p) (n : Nat) :
    output junk seed (n + p) = output junk seed n := by
  obtain ⟨M, h⟩ := h
  obtain ⟨r, r0, -, hr⟩ := C101_periodic junk seed
  have hr' : ∀ k n, output junk seed (n + r * k) = output junk seed n := by
    intro k
    induction k with
    | zero => intro n; rfl
    | succ k ih => intro n; rw [Nat.mul_succ, ← Nat.add_assoc, hr, ih]
  have hle : M ≤ r * M := Nat.le_mul_of_pos_left M r0
  rw [← hr' M (n + p), ← hr' M n, Nat.add_right_comm]
  exact h _ (by omega)

/-- the periods of the outputs are twice those of the words -/
theorem repeats_iff (junk : Mem) (seed : BitVec 32) (p : Nat) :
    Repeats (output junk seed) p ↔ ∃ m, p = 2 * m ∧ ∀ k, sfmtSeq seed (k + m) = sfmtSeq seed k := by
  have hx := (isSFMT_sfmtSeq seed).rec_
  constructor
  · intro h
    have h := from_start junk seed p h
    have h : ∀ n, Sfmt.out64 (sfmtSeq seed) (312 + (n + p)) = Sfmt.out64 (sfmtSeq seed) (312 + n) := by
      intro n
      have := h n
      rw [output_eq, output_eq] at this
      injection this
    rcases Nat.even_or_odd' p with ⟨m, rfl | rfl⟩
    · refine ⟨m, rfl, fun k => ?_⟩
      rw [Nat.add_comm, ← backward hx 156 m (fun i => ?_) k]
      have e0 := h (2 * i)
      have e1 := h (2 * i + 1)
      rw [Sfmt.out64, Sfmt.out64, show (312 + (2 * i + 2 * m)) / 2 = 156 + m + i by omega,
        show (312 + (2 * i + 2 * m)) % 2 = 0 by omega, show (312 + 2 * i) / 2 = 156 + i by omega, show (312 + 2 * i) % 2 = 0 by omega] at e0
      rw [Sfmt.out64, Sfmt.out64, show (312 + (2 * i + 1 + 2 * m)) / 2 = 156 + m + i by omega,
        show (312 + (2 * i + 1 + 2 * m)) % 2 = 1 by omega, show (312 + (2 * i + 1)) / 2 = 156 + i by omega,
        show (312 + (2 * i + 1)) % 2 = 1 by omega] at e1
      exact (halves _ _ e0 e1).symm
    · exact absurd h fun h => odd_period seed m h
  · rintro ⟨m, rfl, h⟩
    refine ⟨0, fun n _ => ?_⟩
    rw [output_eq, output_eq, Sfmt.out64, Sfmt.out64, show (312 + (n + 2 * m)) / 2 = (312 + n) / 2 + m by omega,
      show (312 + (n + 2 * m)) % 2 = (312 + n) % 2 by omega, h]

/-- the periods of the words, in terms of the parts of the run -/
theorem words_iff (seed : BitVec 32) (N : Nat) (hN : N + 1 = 2 ^ 19937) (hp : N.Prime) (m : Nat) :
    (∀ k, sfmtSeq seed (k + m) = sfmtSeq seed k) ↔ N ∣ m ∧ (big (q0 * (q13 * q15)) (flat (sfmtSeq seed)) ≠ 0 → 7 ∣ m) ∧
      (big (q0 * (q3 * q15)) (flat (sfmtSeq seed)) ≠ 0 → 8191 ∣ m) ∧ (big (q0 * (q3 * q13)) (flat (sfmtSeq seed)) ≠ 0 → 32767 ∣ m) := by
  have hr : Run (flat (sfmtSeq seed)) := rel_words (isSFMT_sfmtSeq seed).rec_
  constructor
  · intro h
    have hd := words_least seed N hN hp m h
    exact ⟨hd, (parts hr N hN hp m hd).mp ((step_iff _ m).mpr h)⟩
  · rintro ⟨hd, h⟩
    exact (step_iff _ m).mp ((parts hr N hN hp m hd).mpr h)

theorem dvd_parts (b3 b13 b15 : Bool) (m : Nat) : ((¬b3 = true → 7 ∣ m) ∧ (¬b13 = true → 8191 ∣ m) ∧ (¬b15 = true → 32767 ∣ m)) ↔
    (if b15 then if b3 then 1 else 7 else 32767) * (if b13 then 1 else 8191) ∣ m := by
  have hmul : 32767 ∣ m → 8191 ∣ m → 32767 * 8191 ∣ m := fun a b => Nat.Coprime.mul_dvd_of_dvd_of_dvd (by decide) a b
  have hmul7 : 7 ∣ m → 8191 ∣ m → 7 * 8191 ∣ m := fun a b => Nat.Coprime.mul_dvd_of_dvd_of_dvd (by decide) a b
  have t1 : 32767 ∣ m → 7 ∣ m := fun h => Nat.dvd_trans (by decide) h
  have t2 : 32767 * 8191 ∣ m → 32767 ∣ m := fun h => Nat.dvd_trans (by decide) h
  have t3 : 32767 * 8191 ∣ m → 8191 ∣ m := fun h => Nat.dvd_trans (by decide) h
  have t4 : 7 * 8191 ∣ m → 7 ∣ m := fun h => Nat.dvd_trans (by decide) h
  have t5 : 7 * 8191 ∣ m → 8191 ∣ m := fun h => Nat.dvd_trans (by decide) h
  cases b3 <;> cases b13 <;> cases b15 <;>
    simp only [if_true, Bool.false_eq_true, if_false, not_false_eq_true, not_true_eq_false, true_imp_iff, false_imp_iff, true_and, and_true,
      mul_one, one_mul, one_dvd] <;>
    generalize (32767 * 8191 ∣ m) = A at * <;> generalize (7 * 8191 ∣ m) = B at * <;> generalize (32767 ∣ m) = C at * <;>
    generalize (8191 ∣ m) = D at * <;> generalize (7 ∣ m) = F at * <;> tauto

/-- the period of the words, given which parts are zero -/
theorem period_of (seed : BitVec 32) (b3 b13 b15 : Bool) (h3 : big (q0 * (q13 * q15)) (flat (sfmtSeq seed)) = 0 ↔ b3 = true)
    (h13 : big (q0 * (q3 * q15)) (flat (sfmtSeq seed)) = 0 ↔ b13 = true) (h15 : big (q0 * (q3 * q13)) (flat (sfmtSeq seed)) = 0 ↔ b15 = true)
    (d : Nat) (hd : d = (if b15 then if b3 then 1 else 7 else 32767) * if b13 then 1 else 8191)
    (junk : Mem) (N : Nat) (hN : N = 2 ^ 19937 - 1) (p : Nat) : Repeats (output junk seed) p ↔ 2 * (N * d) ∣ p := by
  obtain ⟨hN, hp⟩ := size N hN
  have hlt : 2 ^ 40 ≤ N + 1 := by
    rw [hN]
    exact Nat.pow_le_pow_right (by decide) (by decide)
  have hw := words_iff seed N hN hp
  clear hN
  have hm : ∀ m, ((∀ k, sfmtSeq seed (k + m) = sfmtSeq seed k) ↔ N * d ∣ m) := by
    intro m
    rw [hw m]
    have hc : Nat.Coprime N d := (Nat.Prime.coprime_iff_not_dvd hp).mpr fun h => by
      have h0 : 0 < d ∧ d < 2 ^ 30 := by rw [hd]; cases b3 <;> cases b13 <;> cases b15 <;> decide
      have := Nat.le_of_dvd h0.1 h
      have e : 2 ^ 30 < 2 ^ 40 := by decide
      omega
    have hi : N * d ∣ m ↔ N ∣ m ∧ d ∣ m :=
      ⟨fun h => ⟨(Dvd.intro _ rfl).trans h, (Dvd.intro_left _ rfl).trans h⟩, fun h => hc.mul_dvd_of_dvd_of_dvd h.1 h.2⟩
    rw [hi, ne_eq, ne_eq, ne_eq, h3, h13, h15]
    refine and_congr_right fun _ => ?_
    rw [hd]
    exact dvd_parts b3 b13 b15 m
  rw [repeats_iff]
  constructor
  · rintro ⟨m, rfl, h⟩
    exact Nat.mul_dvd_mul_left 2 ((hm m).mp h)
  · rintro ⟨c, rfl⟩
    exact ⟨N * d * c, by ring, (hm _).mpr (Dvd.intro _ rfl)⟩

/-- C110: the exact period. For every seed there is a factor `d`, one of six, such that the numbers with which the outputs repeat (from
any point on, hence from the start) are exactly the multiples of 2 (2^19937 - 1) d. -/
theorem C110_exact (seed : BitVec 32) : ∃ d ∈ [1, 7, 8191, 7 * 8191, 32767, 32767 * 8191], ∀ (junk : Mem) (N : Nat), N = 2 ^ 19937 - 1 →
    ∀ p, Repeats (output junk seed) p ↔ 2 * (N * d) ∣ p := by
  classical
  refine ⟨_, ?_, period_of seed (decide (big (q0 * (q13 * q15)) (flat (sfmtSeq seed)) = 0))
    (decide (big (q0 * (q3 * q15)) (flat (sfmtSeq seed)) = 0)) (decide (big (q0 * (q3 * q13)) (flat (sfmtSeq seed)) = 0))
    (by rw [decide_eq_true_iff]) (by rw [decide_eq_true_iff]) (by rw [decide_eq_true_iff]) _ rfl⟩
  generalize decide (big (q0 * (q13 * q15)) (flat (sfmtSeq seed)) = 0) = b3
  generalize decide (big (q0 * (q3 * q15)) (flat (sfmtSeq seed)) = 0) = b13
  generalize decide (big (q0 * (q3 * q13)) (flat (sfmtSeq seed)) = 0) = b15
  revert b3 b13 b15
  decide

/-- C110: a period from any point on is a period from the start. -/
theorem C110_from_start (junk : Mem) (seed : BitVec 32) (p : Nat) (h : Repeats (output junk seed) p) (n : Nat) :
    output junk seed (n + p) = output junk seed n := from_start junk seed p h n

/-- C110: each of the six factors occurs. The stream of seed 87607476 has the shortest of all periods, 2 (2^19937 - 1); that of seed 0 has
the longest. -/
theorem C110_occurs : ∀ sd ∈ [(87607476, 1), (111677947, 7), (120659, 8191), (9733, 7 * 8191), (5749, 32767), (0, 32767 * 8191)],
    ∀ (junk : Mem) (N : Nat), N = 2 ^ 19937 - 1 → ∀ p, Repeats (output junk (BitVec.ofNat 32 sd.1)) p ↔ 2 * (N * sd.2) ∣ p := by
  have key : ∀ (s e d : Nat) (b3 b13 b15 : Bool), e < 2 → (certify (pack (initWord (BitVec.ofNat 32 s)) 0) =
      pack (initWord (BitVec.ofNat 32 s)) 0 ^^^ BitVec.ofNat 128 e) → s < 2 ^ 32 → seedCheck Data.SfmtPoly.phi s e b3 b13 b15 = true →
      d = (if b15 then if b3 then 1 else 7 else 32767) * (if b13 then 1 else 8191) →
      ∀ (junk : Mem) (N : Nat), N = 2 ^ 19937 - 1 → ∀ p, Repeats (output junk (BitVec.ofNat 32 s)) p ↔ 2 * (N * d) ∣ p := by
    intro s e d b3 b13 b15 he hc hs h hd
    have e1 : (BitVec.ofNat 32 s).toNat = s := by rw [BitVec.toNat_ofNat, Nat.mod_eq_of_lt hs]
    obtain ⟨h3, h13, h15⟩ := seedCheck_sound (BitVec.ofNat 32 s) e he hc b3 b13 b15 (by rw [e1]; exact h)
    exact period_of _ b3 b13 b15 h3 h13 h15 d hd
  intro sd hsd
  simp only [List.mem_cons, List.not_mem_nil, or_false] at hsd
  rcases hsd with rfl | rfl | rfl | rfl | rfl | rfl
  · exact key _ 0 _ _ _ _ (by decide) (by decide +kernel) (by decide) seed_87607476 rfl
  · exact key _ 1 _ _ _ _ (by decide) (by decide +kernel) (by decide) seed_111677947 rfl
  · exact key _ 0 _ _ _ _ (by decide) (by decide +kernel) (by decide) seed_120659 rfl
  · exact key _ 1 _ _ _ _ (by decide) (by decide +kernel) (by decide) seed_9733 rfl
  · exact key _ 0 _ _ _ _ (by decide) (by decide +kernel) (by decide) seed_5749 rfl
  · exact key _ 0 _ _ _ _ (by decide) (by decide +kernel) (by decide) seed_0 rfl

/- concrete cases: the shortest period; seed 0 does not have it, but all streams repeat with this one -/
example (junk : Mem) (N : Nat) (hN : N = 2 ^ 19937 - 1) : Repeats (output junk 87607476) (2 * N) :=
  (C110_occurs (87607476, 1) (by simp) junk N hN (2 * N)).mpr (by rw [Nat.mul_one])
example (junk : Mem) (N : Nat) (hN : N = 2 ^ 19937 - 1) : ¬ Repeats (output junk 0) (2 * N) := by
  have h := (C110_occurs (0, 32767 * 8191) (by simp) junk N hN (2 * N)).mp
  have h0 := (size N hN).2.pos
  clear hN
  intro hr
  have := Nat.le_of_dvd (by omega) (h hr)
  omega
example (junk : Mem) (seed : BitVec 32) (N : Nat) (hN : N = 2 ^ 19937 - 1) : Repeats (output junk seed) (2 * (N * (32767 * 8191))) := by
  obtain ⟨d, hd, h⟩ := C110_exact seed
  refine (h junk N hN _).mpr (Nat.mul_dvd_mul_left 2 (Nat.mul_dvd_mul_left N ?_))
  clear h
  revert d
  decide

end Verif.SfmtPeriod
