import Verif.Props.Recover
import Verif.Props.WildGen3Term
import Mathlib.Data.Finset.Sort
/-
C126: how far PID and IVs of a Gen 3 encounter determine the state of the generator.
-/
namespace Verif.Origin3
open Verif.Gen3 Verif.Spec.Gen3 Verif.Lcrng Verif.Spec

/-! ### what is counted -/

/-- the PID made of the next two outputs of state `s`, the first one being the lower half -/
def Pid (s : BitVec 32) (pid : Nat) : Prop := pid = out 1 s + 65536 * out 2 s

/-- which outputs the IVs are made of: in Method 1 the two outputs after the PID; in Method 2 (number 3) there is a gap before
them, in Method 4 between them -/
def words (method : BitVec 8) : Nat × Nat :=
  if method.toNat = 3 then (4, 5) else if method.toNat = 4 then (3, 5) else (3, 4)

/-- the IVs (HP, Attack, Defense, Special Attack, Special Defense, Speed) made of two outputs -/
def spread (w v : Nat) : List Nat := [w % 32, w / 32 % 32, w / 1024 % 32, v / 32 % 32, v / 1024 % 32, v % 32]

/-- the IVs which follow the PID of state `s` -/
def Ivs (method : BitVec 8) (s : BitVec 32) (ivs : List Nat) : Prop :=
  ivs = spread (out (words method).1 s) (out (words method).2 s)

instance (s : BitVec 32) (pid : Nat) : Decidable (Pid s pid) := inferInstanceAs (Decidable (_ = _))
instance (m : BitVec 8) (s : BitVec 32) (ivs : List Nat) : Decidable (Ivs m s ivs) := inferInstanceAs (Decidable (_ = _))

/-! ### steps of the generator -/

theorem after_succ (k : Nat) (s : BitVec 32) :
    (after (k + 1) s).toNat = ((after k s).toNat * 1103515245 + 24691) % 4294967296 := by
  rw [after, lcgAfter, Function.iterate_succ_apply', ← lcgAfter, ← after, lcg, BitVec.toNat_ofNat, Nat.mul_comm]

theorem after_inj (k : Nat) : Function.Injective (after k) := by
  have h1 : Function.Injective (lcg 32 0x41C64E6D 0x6073) := by
    intro x y h
    obtain ⟨q, -, h1, -⟩ := C04_reverse_next (0x6073 : BitVec 32) 0x41C64E6D rfl
    exact Function.LeftInverse.injective h1 (by simpa [next_eq_lcg] using h)
  exact h1.iterate k

/-- how the distance of two states changes with a step -/
theorem step_diff (k : Nat) (s t : BitVec 32) : ∃ q : Int, ((after (k + 1) t).toNat - (after (k + 1) s).toNat : Int)
    = 1103515245 * ((after k t).toNat - (after k s).toNat) + 4294967296 * q := by
  rw [after_succ, after_succ]
  generalize (after k t).toNat = a
  generalize (after k s).toNat = b
  exact ⟨((b * 1103515245 + 24691) / 4294967296 : Nat) - ((a * 1103515245 + 24691) / 4294967296 : Nat), by omega⟩

/-- the lower 31 bits have a generator of their own -/
theorem after_low (k : Nat) (s : BitVec 32) : (after (k + 1) s).toNat % 2147483648
    = ((after k s).toNat % 2147483648 * 1103515245 + 24691) % 2147483648 := by
  rw [after_succ, Nat.mod_mod_of_dvd _ (by decide), Nat.add_mod, Nat.mul_mod, Nat.add_mod (_ * _) 24691, Nat.mul_mod (_ % _),
    Nat.mod_mod]

theorem low_out (n : Nat) : n / 65536 % 32768 = n % 2147483648 / 65536 := by omega

/-! ### PID and IVs -/

/-- **C126**: PID and IVs, for each method, come from one state only. -/
theorem C126_unique (method : BitVec 8) (s t : BitVec 32) (pid : Nat) (ivs : List Nat) (h1 : Pid s pid) (h2 : Pid t pid)
    (h3 : Ivs method s ivs) (h4 : Ivs method t ivs) : s = t := by
  have key : ∀ s t, Pid s pid → Pid t pid → Ivs method s ivs → Ivs method t ivs → ¬ (after 1 s).toNat < (after 1 t).toNat := by
    intro s t h1 h2 h3 h4 hlt
    rw [Pid, out, out] at h1 h2
    have l1 := (after 1 s).isLt
    have l2 := (after 1 t).isLt
    have hS : Same 65536 4294967296 1103515245 24691 (after 1 s).toNat (after 1 t).toNat := by
      have a1 := (after 2 s).isLt
      have a2 := (after 2 t).isLt
      refine ⟨by omega, ?_⟩
      rw [← after_succ, ← after_succ]
      simp only [Nat.reduceAdd]
      omega
    have hd := poke_diff 24691 _ _ hlt hS
    rw [← after_succ, ← after_succ] at hd
    obtain ⟨k, hk⟩ := step_diff 2 s t
    obtain ⟨l, hl⟩ := step_diff 3 s t
    have hd2 : ((after 2 t).toNat : Int) - (after 2 s).toNat = 32471 ∨ ((after 2 t).toNat : Int) - (after 2 s).toNat = 64942 := by
      rcases hd with h | h
      · exact .inl h.2
      · exact .inr h.2
    clear hd hS h1 h2 hlt l1 l2
    have hw : ∀ w w' : Nat, w % 32 = w' % 32 → w / 32 % 32 = w' / 32 % 32 → w / 1024 % 32 = w' / 1024 % 32 →
      w % 32768 = w' % 32768 := by intros; omega
    have hw' : (out 3 s % 32768 = out 3 t % 32768) ∨ (out 4 s % 32768 = out 4 t % 32768) := by
      unfold Ivs spread at h3 h4
      simp only [h3, List.cons.injEq] at h4
      have := hw _ _ h4.1 h4.2.1 h4.2.2.1
      unfold words at this
      split at this
      · exact .inr this
      · split at this <;> exact .inl this
    clear h3 h4 hw
    simp only [out] at hw'
    simp only [Nat.reduceAdd] at *
    generalize (after 2 s).toNat = a at *
    generalize (after 2 t).toNat = b at *
    generalize (after 3 s).toNat = c at *
    generalize (after 3 t).toNat = d at *
    generalize (after 4 s).toNat = e at *
    generalize (after 4 t).toNat = f at *
    have low : ∀ x y : Nat, x / 65536 % 32768 = y / 65536 % 32768 →
        ∃ m r : Int, (y - x : Int) = 2147483648 * m + r ∧ -65536 < r ∧ r < 65536 := by
      intro x y h
      exact ⟨(y / 65536 / 32768 : Nat) - (x / 65536 / 32768 : Nat), (y % 65536 : Nat) - (x % 65536 : Nat), by omega, by omega,
        by omega⟩
    rcases hw' with h' | h' <;> obtain ⟨m, r, e1, e2, e3⟩ := low _ _ h' <;> clear h' low
    · rcases hd2 with h | h <;> rw [h] at hk <;> clear hl h <;> omega
    · rcases hd2 with h | h <;> rw [h] at hk <;> rw [hk] at hl <;> clear h hk <;> omega
  apply after_inj 1
  apply BitVec.eq_of_toNat_eq
  rcases Nat.lt_trichotomy (after 1 s).toNat (after 1 t).toNat with h | h | h
  · exact absurd h (key s t h1 h2 h3 h4)
  · exact h
  · exact absurd h (key t s h2 h1 h4 h3)

/-- **C126**: a PID comes from at most three states. -/
theorem C126_pid (pid : Nat) : { s | Pid s pid }.ncard ≤ 3 := by
  have h := C103_poke (.inl rfl) (p := pokeRNGParams) rfl (BitVec.ofNat 16 (pid % 65536)) (BitVec.ofNat 16 (pid / 65536))
  refine (Set.ncard_le_ncard (fun s hs => ?_) (Set.toFinite _)).trans h
  rw [Set.mem_ofPred_eq, Pid] at hs
  have o1 := out_lt 1 s
  have o2 := out_lt 2 s
  rw [pairs16_eq, Set.mem_ofPred_eq, next_eq_lcg, BitVec.toNat_ofNat, BitVec.toNat_ofNat]
  change out 1 s = _ ∧ out 2 s = _
  omega

/-! ### IVs alone -/

theorem iv_diff (C x y : Nat) (h : x < y) (hs : Same 65536 2147483648 1103515245 C x y) :
    y - x = 24884 ∨ y - x = 26579 ∨ y - x = 51463 ∨ y - x = 53158 := by
  obtain ⟨q, q', u, v, e1, e2, h1, h2, hu, hv⟩ := same_iff _ _ _ _ _ _ hs
  clear hs
  have hu' : u < 2147483648 := by omega
  have hv' : v < 2147483648 := by omega
  clear hu hv
  obtain ⟨i, hi⟩ : ∃ i : Int, i = 12787 * (y - x) - 24884 * (q' - q) := ⟨_, rfl⟩
  obtain ⟨j, hj⟩ : ∃ j : Int, j = 26579 * (q' - q) - 13658 * (y - x) := ⟨_, rfl⟩
  have hd : (y - x : Int) = 26579 * i + 24884 * j := by omega
  have hr : (v - u : Int) = 32471 * i + (-50396) * j := by omega
  have b1 : 0 < (y - x : Int) ∧ (y - x : Int) < 65536 := by omega
  have b2 : -65536 < (v - u : Int) ∧ (v - u : Int) < 65536 := by omega
  have e : y - x = ((y - x : Int)).toNat := by omega
  rw [e]
  clear e e1 e2 h1 h2 hi hj
  generalize (y - x : Int) = d at *
  generalize (v - u : Int) = r at *
  have : -3 < i := by omega
  have : i < 3 := by omega
  have : -2 < j := by omega
  have : j < 2 := by omega
  have hj : j = -1 ∨ j = 0 ∨ j = 1 := by omega
  have hi : i = -2 ∨ i = -1 ∨ i = 0 ∨ i = 1 ∨ i = 2 := by omega
  rcases hj with rfl | rfl | rfl <;> rcases hi with rfl | rfl | rfl | rfl | rfl <;> omega

theorem iv4_diff (C x y : Nat) (h : x < y) (hs : Same 65536 2147483648 1117952617 C x y) :
    y - x = 14985 ∨ y - x = 29970 ∨ y - x = 54014 := by
  obtain ⟨q, q', u, v, e1, e2, h1, h2, hu, hv⟩ := same_iff _ _ _ _ _ _ hs
  clear hs
  have hu' : u < 2147483648 := by omega
  have hv' : v < 2147483648 := by omega
  clear hu hv
  obtain ⟨i, hi⟩ : ∃ i : Int, i = 28119 * (y - x) - 54014 * (q' - q) := ⟨_, rfl⟩
  obtain ⟨j, hj⟩ : ∃ j : Int, j = 14985 * (q' - q) - 7801 * (y - x) := ⟨_, rfl⟩
  have hd : (y - x : Int) = 14985 * i + 54014 * j := by omega
  have hr : (v - u : Int) = 27697 * i + (-43474) * j := by omega
  have b1 : 0 < (y - x : Int) ∧ (y - x : Int) < 65536 := by omega
  have b2 : -65536 < (v - u : Int) ∧ (v - u : Int) < 65536 := by omega
  have e : y - x = ((y - x : Int)).toNat := by omega
  rw [e]
  clear e e1 e2 h1 h2 hi hj
  generalize (y - x : Int) = d at *
  generalize (v - u : Int) = r at *
  have : -3 < i := by omega
  have : i < 3 := by omega
  have : -2 < j := by omega
  have : j < 2 := by omega
  have hj : j = -1 ∨ j = 0 ∨ j = 1 := by omega
  have hi : i = -2 ∨ i = -1 ∨ i = 0 ∨ i = 1 ∨ i = 2 := by omega
  rcases hj with rfl | rfl | rfl <;> rcases hi with rfl | rfl | rfl | rfl | rfl <;> omega

/-- a set of numbers without four members in a row has at most three -/
theorem three_of_chain (S : Set Nat) (hf : S.Finite)
    (h : ∀ a ∈ S, ∀ b ∈ S, ∀ c ∈ S, ∀ d ∈ S, a < b → b < c → c < d → False) : S.ncard ≤ 3 := by
  by_contra hc
  obtain ⟨T, hT, hcard⟩ := Set.exists_subset_card_eq (s := S) (n := 4) (by omega)
  have hTf : T.Finite := hf.subset hT
  rw [Set.ncard_eq_toFinset_card T hTf] at hcard
  have hm : ∀ i : Fin 4, hTf.toFinset.orderEmbOfFin hcard i ∈ S := fun i =>
    hT (hTf.mem_toFinset.1 (Finset.orderEmbOfFin_mem _ hcard i))
  refine h _ (hm 0) _ (hm 1) _ (hm 2) _ (hm 3) ?_ ?_ ?_ <;> rw [OrderEmbedding.lt_iff_lt] <;> decide

/-- words whose lower 31 bits lie in a set of at most three numbers -/
theorem six (P : Set (BitVec 32)) (R : Set Nat) (hR : R.Finite) (h3 : R.ncard ≤ 3) (h : ∀ s ∈ P, s.toNat % 2147483648 ∈ R) :
    P.ncard ≤ 6 := by
  have h2 : ({0, 1} : Set Nat).Finite := Set.toFinite _
  have hle := Set.ncard_le_ncard_of_injOn (s := P) (t := R ×ˢ ({0, 1} : Set Nat))
    (fun s => (s.toNat % 2147483648, s.toNat / 2147483648)) (fun s hs => ?_) (fun s _ t _ e => ?_) (hR.prod h2)
  · rw [Set.ncard_prod, Set.ncard_pair (by decide)] at hle
    omega
  · refine ⟨h s hs, ?_⟩
    have := s.isLt
    simp only [Set.mem_insert_iff, Set.mem_singleton_iff]
    omega
  · simp only [Prod.mk.injEq] at e
    apply BitVec.eq_of_toNat_eq
    omega

/-- **C126**: IVs alone come, for each method, from at most six states. -/
theorem C126_ivs (method : BitVec 8) (ivs : List Nat) : { s | Ivs method s ivs }.ncard ≤ 6 := by
  have hw : ∀ w w' : Nat, w % 32 = w' % 32 → w / 32 % 32 = w' / 32 % 32 → w / 1024 % 32 = w' / 1024 % 32 →
    w % 32768 = w' % 32768 := by intros; omega
  -- both words without the top bit
  have both : ∀ s t, Ivs method s ivs → Ivs method t ivs →
      let x := words method
      out x.1 s % 32768 = out x.1 t % 32768 ∧ out x.2 s % 32768 = out x.2 t % 32768 := by
    intro s t hs ht
    unfold Ivs spread at hs ht
    simp only [hs, List.cons.injEq] at ht
    exact ⟨hw _ _ ht.1 ht.2.1 ht.2.2.1, hw _ _ ht.2.2.2.2.2.1 ht.2.2.2.1 ht.2.2.2.2.1⟩
  have fin : ∀ i, { n | ∃ s, Ivs method s ivs ∧ n = (after i s).toNat % 2147483648 }.Finite := fun i =>
    (Set.finite_lt_nat 2147483648).subset (by rintro n ⟨s, -, rfl⟩; exact Nat.mod_lt _ (by decide))
  have done : ∀ i, { n | ∃ s, Ivs method s ivs ∧ n = (after i s).toNat % 2147483648 }.ncard ≤ 3 →
      { s | Ivs method s ivs }.ncard ≤ 6 := by
    intro i h
    have e : ((after i) '' { s | Ivs method s ivs }).ncard = { s | Ivs method s ivs }.ncard :=
      Set.ncard_image_of_injective _ (after_inj i)
    rw [← e]
    refine six _ _ (fin i) h ?_
    rintro _ ⟨s, hs, rfl⟩
    exact ⟨s, hs, rfl⟩
  -- consecutive words
  have near : ∀ i, (∀ s t, Ivs method s ivs → Ivs method t ivs → out i s % 32768 = out i t % 32768 ∧
      out (i + 1) s % 32768 = out (i + 1) t % 32768) → { s | Ivs method s ivs }.ncard ≤ 6 := by
    intro i hb
    refine done i (three_of_chain _ (fin i) ?_)
    have dd : ∀ s t, Ivs method s ivs → Ivs method t ivs → (after i s).toNat % 2147483648 < (after i t).toNat % 2147483648 →
        (let d := (after i t).toNat % 2147483648 - (after i s).toNat % 2147483648
         d = 24884 ∨ d = 26579 ∨ d = 51463 ∨ d = 53158) := by
      intro s t hs ht hlt
      refine iv_diff 24691 _ _ hlt ?_
      obtain ⟨e1, e2⟩ := hb s t hs ht
      rw [out, out, low_out, low_out] at e1 e2
      rw [after_low, after_low] at e2
      exact ⟨e1, e2⟩
    rintro x1 ⟨a, ha, e1⟩ x2 ⟨b, hb', e2⟩ x3 ⟨c, hc, e3⟩ x4 ⟨d, hd, e4⟩ h1 h2 h3
    rw [e1, e2] at h1
    rw [e2, e3] at h2
    rw [e3, e4] at h3
    clear e1 e2 e3 e4
    have k1 := dd a b ha hb' h1
    have k2 := dd b c hb' hc h2
    have k3 := dd c d hc hd h3
    have k4 := dd a d ha hd (by omega)
    dsimp only at k1 k2 k3 k4
    omega
  have far : (∀ s t, Ivs method s ivs → Ivs method t ivs → out 3 s % 32768 = out 3 t % 32768 ∧
      out 5 s % 32768 = out 5 t % 32768) → { s | Ivs method s ivs }.ncard ≤ 6 := by
    intro hb
    refine done 3 (three_of_chain _ (fin 3) ?_)
    have dd : ∀ s t, Ivs method s ivs → Ivs method t ivs → (after 3 s).toNat % 2147483648 < (after 3 t).toNat % 2147483648 →
        (let d := (after 3 t).toNat % 2147483648 - (after 3 s).toNat % 2147483648
         d = 14985 ∨ d = 29970 ∨ d = 54014) := by
      intro s t hs ht hlt
      refine iv4_diff 1769896810 _ _ hlt ?_
      obtain ⟨e1, e2⟩ := hb s t hs ht
      rw [out, out, low_out, low_out] at e1 e2
      have two : ∀ s, (after 5 s).toNat % 2147483648
          = ((after 3 s).toNat % 2147483648 * 1117952617 + 1769896810) % 2147483648 := by
        intro s
        rw [after_low 4 s, after_low 3 s]
        generalize (after 3 s).toNat % 2147483648 = a
        omega
      rw [two, two] at e2
      exact ⟨e1, e2⟩
    rintro x1 ⟨a, ha, e1⟩ x2 ⟨b, hb', e2⟩ x3 ⟨c, hc, e3⟩ x4 ⟨d, hd, e4⟩ h1 h2 h3
    rw [e1, e2] at h1
    rw [e2, e3] at h2
    rw [e3, e4] at h3
    clear e1 e2 e3 e4
    have k1 := dd a b ha hb' h1
    have k2 := dd b c hb' hc h2
    have k3 := dd c d hc hd h3
    have k4 := dd a d ha hd (by omega)
    dsimp only at k1 k2 k3 k4
    omega
  dsimp only [words] at both
  split at both
  · exact near 4 both
  · split at both
    · exact far both
    · exact near 3 both

/-- six states with the same IVs, for Methods 1, 2 and 4: the bound is attained -/
example : ([0xD6541B2B, 0x56541B2B, 0xA1EF8A92, 0x21EF8A92, 0x6D8AF9F9, 0xED8AF9F9].all fun s =>
      decide (Ivs Method.method1 s [27, 30, 24, 30, 16, 3])) ∧
    ([0x6A679298, 0xEA679298, 0xB16D133B, 0x316D133B, 0xF87293DE, 0x787293DE].all fun s =>
      decide (Ivs Method.method2 s [27, 30, 24, 30, 16, 3])) ∧
    ([0x0F262C6B, 0x8F262C6B, 0x86B56B70, 0x06B56B70, 0xFE44AA75, 0x7E44AA75].all fun s =>
      decide (Ivs Method.method4 s [12, 10, 16, 25, 3, 4])) := by decide +kernel

/-! ### searches -/

/-- **C126**: PID and IVs of every state found are made of the outputs of one state of the generator, reached from the seed after
at least `init + delay` steps. -/
theorem C126_search (t : Tables) (method encounter lead : BitVec 8) (game : BitVec 32) (tid sid : BitVec 16) (fuel : Nat)
    (area : EncounterArea3) (wf : WellFormed (WildGenerator3.new t method encounter lead game tid sid) area)
    (seed : BitVec 32) (delay init max : Nat) (hn : init + delay < 2 ^ 32) (states : List State)
    (h : run .numba t method encounter lead game tid sid fuel seed delay init max area = .ok states)
    (st : State) (hst : st ∈ states) :
    ∃ N ≥ init + delay, Pid (after N seed) st.pid.toNat ∧ Ivs method (after N seed) (st.ivs.toList.map BitVec.toNat) := by
  obtain ⟨m, h1, h2, h3, -⟩ := (C55_exact (WildGenerator3.new t method encounter lead game tid sid) fuel seed delay init max area
    hn states).1 h
  obtain ⟨hm, hlen⟩ := modified_mem _ _ _ _ _ _ h1
  obtain ⟨k, hk, rfl⟩ := List.getElem_of_mem hst
  obtain ⟨slot, info, j, n, pid, hn', rfl, -, -, -, -, -, -, q5, -, -, -, -, -, -, -, -, -, -, q16⟩ :=
    C56_state _ fuel area wf m hlen hm _ _ _ (h3 k hk)
  obtain ⟨n, rfl⟩ : ∃ n', n = n' + 1 := ⟨_, hn'⟩
  refine ⟨n + (init + delay + k), by omega, ?_, ?_⟩
  · rw [Pid, q5, pidAt, ← after_after n, out_after 1 n, out_after 2 n, Nat.add_comm 1 n, Nat.add_comm 2 n]
  · have em : (WildGenerator3.new t method encounter lead game tid sid).method = method := rfl
    rw [em] at q16
    dsimp only at q16
    rw [q16]
    unfold Ivs spread words
    have e2 : method = Method.method2 ↔ method.toNat = 3 := ⟨fun h => by rw [h]; rfl, fun h => BitVec.eq_of_toNat_eq h⟩
    have e4 : method = Method.method4 ↔ method.toNat = 4 := ⟨fun h => by rw [h]; rfl, fun h => BitVec.eq_of_toNat_eq h⟩
    have o : ∀ i, out i (after (n + (init + delay + k)) seed) = out (n + i) (after (init + delay + k) seed) := by
      intro i
      rw [← after_after n, out_after, Nat.add_comm]
    generalize init + delay + k = d at o
    simp only [e2, e4]
    by_cases c2 : method.toNat = 3
    · simp [c2, o, Nat.add_assoc]
    · by_cases c4 : method.toNat = 4
      · simp [c4, o, Nat.add_assoc]
      · simp [c2, c4, o, Nat.add_assoc]

/-- what some search with a method finds -/
def Found (method : BitVec 8) (pid : Nat) (ivs : List Nat) : Prop :=
  ∃ (t : Tables) (encounter lead : BitVec 8) (game : BitVec 32) (tid sid : BitVec 16) (fuel : Nat) (area : EncounterArea3)
    (seed : BitVec 32) (delay init max : Nat) (states : List State) (st : State),
    WellFormed (WildGenerator3.new t method encounter lead game tid sid) area ∧ init + delay < 2 ^ 32 ∧
    run .numba t method encounter lead game tid sid fuel seed delay init max area = .ok states ∧ st ∈ states ∧
    pid = st.pid.toNat ∧ ivs = st.ivs.toList.map BitVec.toNat

theorem Found.origin {method : BitVec 8} {pid : Nat} {ivs : List Nat} (h : Found method pid ivs) :
    ∃ s, Pid s pid ∧ Ivs method s ivs := by
  obtain ⟨t, e, l, g, tid, sid, fuel, area, seed, delay, init, max, states, st, h1, h2, h3, h4, rfl, rfl⟩ := h
  obtain ⟨N, -, h5, h6⟩ := C126_search t method e l g tid sid fuel area h1 seed delay init max h2 states h3 st h4
  exact ⟨_, h5, h6⟩

/-- **C126**: whatever the seeds, areas, leads, games and trainers, searches with one method find any PID with at most three
different sets of IVs. -/
theorem C126_spreads (method : BitVec 8) (pid : Nat) : { ivs | Found method pid ivs }.ncard ≤ 3 := by
  refine le_trans ?_ (C126_pid pid)
  let f : BitVec 32 → List Nat := fun s => spread (out (words method).1 s) (out (words method).2 s)
  refine (Set.ncard_le_ncard (t := f '' { s | Pid s pid }) ?_ (Set.toFinite _)).trans (Set.ncard_image_le (Set.toFinite _))
  intro ivs h
  obtain ⟨s, h1, h2⟩ := Found.origin h
  exact ⟨s, h1, h2.symm⟩

/-- **C126**: IVs are found with at most six different PIDs. -/
theorem C126_pids (method : BitVec 8) (ivs : List Nat) : { pid | Found method pid ivs }.ncard ≤ 6 := by
  refine le_trans ?_ (C126_ivs method ivs)
  refine (Set.ncard_le_ncard (t := (fun s => out 1 s + 65536 * out 2 s) '' { s | Ivs method s ivs }) ?_ (Set.toFinite _)).trans
    (Set.ncard_image_le (Set.toFinite _))
  intro pid h
  obtain ⟨s, h1, h2⟩ := Found.origin h
  exact ⟨s, h2, h1.symm⟩

/-- **C126**: if two searches with one method find the same PID and IVs, the generators were in the same state; in particular one
seed gives a pair of PID and IVs again only after a multiple of `2^32` steps. -/
theorem C126_determined (method : BitVec 8) (seed seed' : BitVec 32) (N N' : Nat) (pid : Nat) (ivs : List Nat)
    (h1 : Pid (after N seed) pid) (h2 : Ivs method (after N seed) ivs) (h3 : Pid (after N' seed') pid)
    (h4 : Ivs method (after N' seed') ivs) : after N seed = after N' seed' ∧ (seed = seed' → N % 2 ^ 32 = N' % 2 ^ 32) := by
  have h := C126_unique method _ _ pid ivs h1 h3 h2 h4
  refine ⟨h, fun e => ?_⟩
  subst e
  obtain ⟨p, hp, hper⟩ := C05_period pokeRNG C05_shipped.1
  have hp' : p = pokeRNGParams := by cases hp; rfl
  subst hp'
  have key : ∀ n s, after n s = s ↔ 2 ^ 32 ∣ n := by
    intro n s
    rw [← hper n s, next_eq_lcg]
    exact Iff.rfl
  have step : ∀ N N', N ≤ N' → after N seed = after N' seed → N % 2 ^ 32 = N' % 2 ^ 32 := by
    intro N N' hle e
    have := (key (N' - N) (after N seed)).1 (by rw [after_after, e, Nat.sub_add_cancel hle])
    omega
  rcases Nat.le_total N N' with hle | hle
  · exact step _ _ hle h
  · exact (step _ _ hle h.symm).symm

/-- the three states of one PID, with three sets of IVs in every method -/
theorem three :
    Pid 0x06554A76 0x5BF13C45 ∧ Pid 0x9747F1B5 0x5BF13C45 ∧ Pid 0x283A98F4 0x5BF13C45 ∧
    (∀ s ∈ [0x06554A76, 0x9747F1B5, 0x283A98F4], ∀ t ∈ [0x06554A76, 0x9747F1B5, (0x283A98F4 : BitVec 32)],
      ∀ m ∈ [Method.method1, Method.method2, Method.method4], ∀ ivs, Ivs m s ivs → Ivs m t ivs → s = t) := by
  refine ⟨by decide +kernel, by decide +kernel, by decide +kernel, fun s hs t ht m _ ivs h1 h2 => ?_⟩
  have hp : ∀ s ∈ [0x06554A76, 0x9747F1B5, (0x283A98F4 : BitVec 32)], Pid s 0x5BF13C45 := by
    simp only [List.mem_cons, List.not_mem_nil, or_false]
    rintro s (rfl | rfl | rfl) <;> decide +kernel
  exact C126_unique m s t _ ivs (hp s hs) (hp t ht) h1 h2

/-- **C126**: some PIDs are never found: there are as many states as PIDs, and one PID has three. -/
theorem C126_never : ∃ pid < 2 ^ 32, (∀ s, ¬ Pid s pid) ∧ ∀ method ivs, ¬ Found method pid ivs := by
  have hlt : ∀ s, out 1 s + 65536 * out 2 s < 2 ^ 32 := by
    intro s
    have := out_lt 1 s
    have := out_lt 2 s
    omega
  have hni : ¬ Function.Injective fun s : BitVec 32 => BitVec.ofNat 32 (out 1 s + 65536 * out 2 s) := by
    intro h
    have h1 : 0x5BF13C45 = out 1 0x06554A76 + 65536 * out 2 0x06554A76 := three.1
    have h2 : 0x5BF13C45 = out 1 0x9747F1B5 + 65536 * out 2 0x9747F1B5 := three.2.1
    have h3 : (0x06554A76 : BitVec 32) = 0x9747F1B5 := h (by dsimp only; rw [← h1, ← h2])
    exact absurd h3 (by decide)
  rw [Finite.injective_iff_surjective, Function.Surjective] at hni
  push Not at hni
  obtain ⟨p, hp⟩ := hni
  have key : ∀ s, ¬ Pid s p.toNat := by
    intro s h
    apply hp s
    rw [← show p.toNat = _ from h, BitVec.ofNat_toNat, BitVec.setWidth_eq]
  refine ⟨p.toNat, p.isLt, key, fun m ivs h => ?_⟩
  obtain ⟨s, h1, -⟩ := h.origin
  exact key s h1

/-- searches find something with each method (here three states in grass) -/
example (method : BitVec 8) : ∃ pid ivs, Found method pid ivs := by
  let g := WildGenerator3.new ⟨[], exampleTable, [], []⟩ method Encounter.grass Lead.none Game.emerald 0 0
  have wf : WellFormed g exampleArea := by
    have hmem : ∀ s ∈ slotList exampleArea Encounter.grass, s.minLevel.toNat ≤ s.maxLevel.toNat ∧
      s.species.toNat % 2048 < 3 := by decide
    exact ⟨fun s hs => (hmem s hs).1, fun s hs => (hmem s hs).2⟩
  have he : Ends g exampleArea := by
    have hmem : ∀ s ∈ slotList exampleArea Encounter.grass, s.species.toNat % 2048 ≠ 201 := by decide
    exact ⟨fun s hs h => absurd h (hmem s hs), fun h => absurd h (show ¬ Lead.none = Lead.cuteCharmM by decide),
      fun h => absurd h (show ¬ Lead.none = Lead.cuteCharmF by decide)⟩
  have hr : ¬ rockCheck g := by rintro ⟨-, h⟩; exact absurd h (show ¬ Encounter.grass = Encounter.rockSmash by decide)
  obtain ⟨states, hs⟩ := C57_partial g exampleArea wf he (by intro info h; cases h)
    (by show ∀ s ∈ slotList exampleArea Encounter.grass, s.species.toNat % 1024 < 3; decide) 7 1 5 3 (by norm_num)
  obtain ⟨-, -, hl, -⟩ := C55_partial g hr (2 ^ 31) 7 1 5 3 exampleArea (by norm_num) states (hs _ (le_refl _))
  exact ⟨_, _, _, _, _, _, _, _, 2 ^ 31, exampleArea, 7, 1, 5, 3, states, states[0], wf, by norm_num, hs _ (le_refl _),
    List.getElem_mem _, rfl, rfl⟩

end Verif.Origin3
