import Verif.Lemmas.Json
/-
Texts as numbers with one byte per character, for comparisons by the kernel.
-/
namespace Verif.Bytes
open Json (Str isDigit ofDecimal)

/-- the decimal digits of a number, of which there are at most `fuel` -/
def dec : Nat → Nat → Str → Str
  | 0, _, acc => acc
  | f + 1, x, acc => if x < 10 then (48 + x) :: acc else dec f (x / 10) ((48 + x % 10) :: acc)

theorem dec_spec (f x : Nat) (acc : Str) (hf : 0 < f) (hx : x < 10 ^ f) (ha : acc.all isDigit = true) :
    (dec f x acc ≠ [] ∧ (dec f x acc).all isDigit = true) ∧
      (dec f x acc).foldl (fun a c => 10 * a + (c - 48)) 0 = acc.foldl (fun a c => 10 * a + (c - 48)) x := by
  induction f generalizing x acc with
  | zero => omega
  | succ f ih =>
    rw [dec]
    split
    · rename_i h
      refine ⟨⟨by simp, ?_⟩, by simp⟩
      simp only [List.all_cons, ha, isDigit, Bool.and_true, Bool.and_eq_true, decide_eq_true_eq]
      omega
    · rename_i h
      have hf : 0 < f := by
        rcases Nat.eq_zero_or_pos f with rfl | h'
        · simp at hx; omega
        · exact h'
      have := ih (x / 10) ((48 + x % 10) :: acc) hf (by rw [pow_succ] at hx; omega) (by
        simp only [List.all_cons, ha, isDigit, Bool.and_true, Bool.and_eq_true, decide_eq_true_eq]; omega)
      refine ⟨this.1, this.2.trans ?_⟩
      rw [List.foldl_cons]
      congr 1
      omega

/-- the number with the given bytes, lowest first -/
def enc : Str → Nat
  | [] => 0
  | c :: cs => c + 256 * enc cs

theorem enc_eq (s : Str) : enc s = Nat.ofDigits 256 s := by
  induction s with
  | nil => rfl
  | cons c s ih => rw [enc, ih, Nat.ofDigits_cons]

theorem enc_append (p q : Str) : enc (p ++ q) = enc p + enc q <<< (8 * p.length) := by
  induction p with
  | nil => simp [enc]
  | cons c p ih =>
    rw [List.cons_append, enc, ih, enc, List.length_cons, Nat.shiftLeft_eq, Nat.shiftLeft_eq, Nat.mul_add, Nat.mul_add, pow_add]
    ring

theorem enc_lt {s : Str} (h : ∀ c ∈ s, 0 < c ∧ c < 256) : enc s < 2 ^ (8 * s.length) := by
  induction s with
  | nil => simp [enc]
  | cons c s ih =>
    have := ih fun c hc => h c (List.mem_cons_of_mem _ hc)
    have := (h c List.mem_cons_self).2
    rw [enc, List.length_cons, Nat.mul_add, pow_add]
    omega

/-- the bytes of a number that starts with the given ones -/
theorem digits_peel {p : Str} (hp : ∀ c ∈ p, 0 < c ∧ c < 256) {rem : Nat} (h : rem % 2 ^ (8 * p.length) = enc p) :
    Nat.digits 256 rem = p ++ Nat.digits 256 (rem >>> (8 * p.length)) := by
  have e : rem = enc (p ++ Nat.digits 256 (rem >>> (8 * p.length))) := by
    rw [enc_append, ← h, enc_eq, Nat.ofDigits_digits, Nat.shiftLeft_eq, Nat.shiftRight_eq_div_pow]
    exact (Nat.mod_add_div' _ _).symm
  conv_lhs => rw [e]
  rw [enc_eq]
  refine Nat.digits_ofDigits 256 (by norm_num) _ (fun c hc => ?_) fun hs => ?_
  · rcases List.mem_append.1 hc with hc | hc
    · exact (hp c hc).2
    · exact Nat.digits_lt_base (by norm_num) hc
  · by_cases h0 : Nat.digits 256 (rem >>> (8 * p.length)) = []
    · have hp' : p ≠ [] := by rintro rfl; exact hs (by simpa using h0)
      rw [List.getLast_congr _ hp' (by rw [h0, List.append_nil])]
      exact Nat.pos_iff_ne_zero.1 (hp _ (List.getLast_mem hp')).1
    · rw [List.getLast_append_of_ne_nil _ h0]
      exact Nat.getLast_digit_ne_zero 256 (by rintro h; exact h0 (by rw [h]; rfl))

/-- `k x` with `x` evaluated first -/
def force {α : Type} (x : Nat) (k : Nat → α) : α := Nat.rec (k 0) (fun n _ => k (Nat.succ n)) x

theorem force_eq {α : Type} (x : Nat) (k : Nat → α) : force x k = k x := by cases x <;> rfl

/-- the number and the length of a decimal string -/
def fastDec (f : Nat) : Nat → Nat → Nat → (Nat → Nat → Bool) → Bool :=
  Nat.rec (fun _ e n k => k e n)
    (fun _ more x e n k =>
      Bool.rec
        (force (Nat.add (Nat.add 48 (Nat.mod x 10)) (Nat.mul 256 e)) fun e => force (Nat.succ n) fun n =>
          force (Nat.div x 10) fun x => more x e n k)
        (force (Nat.add (Nat.add 48 x) (Nat.mul 256 e)) fun e => force (Nat.succ n) fun n => k e n)
        (Nat.ble (Nat.succ x) 10)) f

theorem fastDec_succ (f x e n : Nat) (k : Nat → Nat → Bool) : fastDec (f + 1) x e n k =
    bif Nat.blt x 10 then force (Nat.add (Nat.add 48 x) (Nat.mul 256 e)) fun e => force (Nat.succ n) fun n => k e n
    else force (Nat.add (Nat.add 48 (Nat.mod x 10)) (Nat.mul 256 e)) fun e => force (Nat.succ n) fun n =>
      force (Nat.div x 10) fun x => fastDec f x e n k := by
  have h : ∀ b : Bool, b = Nat.ble (Nat.succ x) 10 → fastDec (f + 1) x e n k =
      bif b then force (Nat.add (Nat.add 48 x) (Nat.mul 256 e)) fun e => force (Nat.succ n) fun n => k e n
      else force (Nat.add (Nat.add 48 (Nat.mod x 10)) (Nat.mul 256 e)) fun e => force (Nat.succ n) fun n =>
        force (Nat.div x 10) fun x => fastDec f x e n k := by
    intro b hb
    cases b <;> (simp only [fastDec]; rw [← hb]) <;> rfl
  exact h _ rfl

theorem fastDec_eq (f x : Nat) (s : Str) (k : Nat → Nat → Bool) :
    fastDec f x (enc s) s.length k = k (enc (dec f x s)) (dec f x s).length := by
  induction f generalizing x s with
  | zero => rfl
  | succ f ih =>
    rw [fastDec_succ, dec]
    by_cases hx : x < 10
    · have : Nat.blt x 10 = true := by simpa [Nat.blt_eq] using hx
      rw [this, cond_true, if_pos hx, force_eq, force_eq]
      rfl
    · have : Nat.blt x 10 = false := by
        rw [← Bool.not_eq_true, Nat.blt_eq]
        exact hx
      rw [this, cond_false, if_neg hx, force_eq, force_eq, force_eq]
      exact ih (x / 10) ((48 + x % 10) :: s)

end Verif.Bytes
