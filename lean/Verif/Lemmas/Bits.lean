import Verif.Model.Utils
import Verif.Spec.Bits

namespace Necro
open Spec

theorem bit_ofNat (n i : Nat) : bit (Int.ofNat n) i = n.testBit i := by
  simp only [bit, Nat.testBit_eq_decide_div_mod_eq, Int.ofNat_eq_natCast]
  have h : ((n : Int) / 2 ^ i) % 2 = ((n / 2 ^ i % 2 : Nat) : Int) := by
    simp
  rw [decide_eq_decide, h]
  omega

theorem negSucc_div_pow (n i : Nat) : Int.negSucc n / 2 ^ i = Int.negSucc (n / 2 ^ i) := by
  have : (0 : Int) < 2 ^ i := Int.pow_pos (by decide)
  rw [Int.negSucc_ediv _ this]
  rw [Int.negSucc_eq]
  have : (n : Int).ediv (2 ^ i) = ((n / 2 ^ i : Nat) : Int) := by
    change (n : Int) / 2 ^ i = _
    simp
  rw [this]

theorem bit_negSucc (n i : Nat) : bit (Int.negSucc n) i = !n.testBit i := by
  simp only [bit, Nat.testBit_eq_decide_div_mod_eq, negSucc_div_pow]
  generalize n / 2 ^ i = m
  have : Int.negSucc m % 2 = 1 ↔ ¬ (m % 2 = 1) := by
    rw [Int.negSucc_eq]; omega
  simp only [this, decide_not]

theorem bit_natCast (n i : Nat) : bit (n : Int) i = n.testBit i := bit_ofNat n i

@[simp] theorem bit_pyAnd (a b : Int) (i : Nat) : bit (pyAnd a b) i = (bit a i && bit b i) := by
  cases a <;> cases b <;>
    simp only [pyAnd, bit_ofNat, bit_negSucc, Nat.testBit_and, Nat.testBit_or, Nat.testBit_xor] <;>
    grind

@[simp] theorem bit_pyOr (a b : Int) (i : Nat) : bit (pyOr a b) i = (bit a i || bit b i) := by
  cases a <;> cases b <;>
    simp only [pyOr, bit_ofNat, bit_negSucc, Nat.testBit_and, Nat.testBit_or, Nat.testBit_xor] <;>
    grind

/-- Integers with the same bits are equal. -/
theorem bit_ext {a b : Int} (h : ∀ i, bit a i = bit b i) : a = b := by
  cases a with
  | ofNat a =>
    cases b with
    | ofNat b =>
      congr 1
      apply Nat.eq_of_testBit_eq
      intro i
      have := h i
      rwa [bit_ofNat, bit_ofNat] at this
    | negSucc b =>
      exfalso
      have := h (a + b)
      rw [bit_ofNat, bit_negSucc, Nat.testBit_lt_two_pow, Nat.testBit_lt_two_pow] at this
      · cases this
      · exact Nat.lt_of_lt_of_le b.lt_two_pow_self (Nat.pow_le_pow_right (by decide) (by omega))
      · exact Nat.lt_of_lt_of_le a.lt_two_pow_self (Nat.pow_le_pow_right (by decide) (by omega))
  | negSucc a =>
    cases b with
    | ofNat b =>
      exfalso
      have := h (a + b)
      rw [bit_ofNat, bit_negSucc, Nat.testBit_lt_two_pow, Nat.testBit_lt_two_pow] at this
      · cases this
      · exact Nat.lt_of_lt_of_le b.lt_two_pow_self (Nat.pow_le_pow_right (by decide) (by omega))
      · exact Nat.lt_of_lt_of_le a.lt_two_pow_self (Nat.pow_le_pow_right (by decide) (by omega))
    | negSucc b =>
      congr 1
      apply Nat.eq_of_testBit_eq
      intro i
      have := h i
      simp only [bit_negSucc] at this
      simpa using this

theorem bit_div_pow (x : Int) (k i : Nat) : bit (x / 2 ^ k) i = bit x (i + k) := by
  simp only [bit]
  rw [Int.ediv_ediv_of_nonneg (Int.le_of_lt (Int.pow_pos (by decide))), ← Int.pow_add,
    Nat.add_comm k i]

theorem bit_pyShr (x : Int) (k i : Nat) : bit (pyShr x k) i = bit x (i + k) := by
  unfold pyShr
  rw [← bit_div_pow]; simp

theorem bit_mul_pow (x : Int) (k i : Nat) : bit (x * 2 ^ k) i = (decide (k ≤ i) && bit x (i - k)) := by
  simp only [bit]
  by_cases h : k ≤ i
  · obtain ⟨j, rfl⟩ := Nat.exists_eq_add_of_le h
    simp only [h, decide_true, Bool.true_and, Nat.add_sub_cancel_left]
    rw [Int.pow_add, ← Int.ediv_ediv_of_nonneg (Int.le_of_lt (Int.pow_pos (by decide))),
      Int.mul_ediv_cancel _ (by have : (0:Int) < 2 ^ k := Int.pow_pos (by decide)
                                omega)]
  · obtain ⟨j, rfl⟩ : ∃ j, k = i + (j + 1) := ⟨k - i - 1, by omega⟩
    have : x * 2 ^ (i + (j + 1)) / 2 ^ i % 2 = 0 := by
      rw [Int.pow_add, Int.mul_comm (2 ^ i), ← Int.mul_assoc,
        Int.mul_ediv_cancel _ (by have : (0:Int) < 2 ^ i := Int.pow_pos (by decide)
                                  omega),
        Int.pow_succ, ← Int.mul_assoc]
      omega
    simp [this, h]

theorem bit_pyShl (x : Int) (k i : Nat) :
    bit (pyShl x k) i = (decide (k ≤ i) && bit x (i - k)) := by
  unfold pyShl
  rw [← bit_mul_pow]; simp

theorem bit_emod_pow (x : Int) (k i : Nat) : bit (x % 2 ^ k) i = (decide (i < k) && bit x i) := by
  have hk : (0 : Int) < 2 ^ k := Int.pow_pos (by decide)
  by_cases h : i < k
  · simp only [h, decide_true, Bool.true_and, bit]
    obtain ⟨j, rfl⟩ : ∃ j, k = i + (j + 1) := ⟨k - i - 1, by omega⟩
    have hi : (0 : Int) < 2 ^ i := Int.pow_pos (by decide)
    have e : x % 2 ^ (i + (j + 1)) = x - 2 ^ i * (2 * (2 ^ j * (x / 2 ^ (i + (j + 1))))) := by
      rw [Int.emod_def, Int.pow_add, Int.pow_succ]
      grind
    rw [e, Int.sub_eq_add_neg, ← Int.mul_neg, Int.add_mul_ediv_left _ _ (by omega)]
    congr 1
    apply propext
    omega
  · simp only [h, decide_false, Bool.false_and]
    have h1 : 0 ≤ x % 2 ^ k := Int.emod_nonneg _ (by omega)
    have h2 : x % 2 ^ k < 2 ^ k := Int.emod_lt_of_pos _ hk
    have h3 : (2 : Int) ^ k ≤ 2 ^ i := by
      have := Nat.pow_le_pow_right (n := 2) (by decide) (Nat.le_of_not_lt h)
      exact_mod_cast this
    simp only [bit]
    rw [Int.ediv_eq_zero_of_lt h1 (by omega)]
    simp

theorem bit_mask (k i : Nat) : bit ((2 ^ k - 1 : Nat) : Int) i = decide (i < k) := by
  rw [bit_natCast, Nat.testBit_two_pow_sub_one]

/-- Masking with `2^k - 1` is reduction modulo `2^k`. -/
theorem pyAnd_mask (x : Int) (k : Nat) : pyAnd x ((2 ^ k - 1 : Nat) : Int) = x % 2 ^ k := by
  apply bit_ext
  intro i
  rw [bit_pyAnd, bit_mask, bit_emod_pow]
  grind

theorem bit_zero (i : Nat) : bit 0 i = false := by simp [bit]

theorem pyOr_comm (a b : Int) : pyOr a b = pyOr b a := by
  apply bit_ext; intro i; simp [Bool.or_comm]

theorem pyOr_assoc (a b c : Int) : pyOr (pyOr a b) c = pyOr a (pyOr b c) := by
  apply bit_ext; intro i; simp [Bool.or_assoc]

theorem pyOr_zero_left (a : Int) : pyOr 0 a = a := by
  apply bit_ext; intro i; simp [bit_zero]

theorem pyOr_zero_right (a : Int) : pyOr a 0 = a := by
  apply bit_ext; intro i; simp [bit_zero]

end Necro
