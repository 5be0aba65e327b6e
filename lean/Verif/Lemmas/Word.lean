import Verif.Props.Utils
import Verif.Lemmas.Handler
import Verif.Lemmas.Link
/-!
# Instruction words built from bit fields
-/

namespace Necro
open Spec

/-! ## disjoint bits add up -/

theorem or_eq_add : ∀ (a b : Nat), (∀ i, ¬ (a.testBit i = true ∧ b.testBit i = true)) → a ||| b = a + b := by
  intro a
  induction a using Nat.strongRecOn with
  | ind a ih =>
    intro b h
    by_cases ha : a = 0
    · subst ha; simp
    have hdiv : a / 2 ||| b / 2 = a / 2 + b / 2 := by
      apply ih (a / 2) (by omega)
      intro i
      have := h (i + 1)
      rwa [Nat.testBit_succ, Nat.testBit_succ] at this
    have h1 : (a ||| b) / 2 = a / 2 ||| b / 2 := Nat.or_div_two
    have h0 := h 0
    simp only [Nat.testBit_zero, decide_eq_true_eq] at h0
    have h2 : (a ||| b) % 2 = 1 ↔ a % 2 = 1 ∨ b % 2 = 1 := Nat.or_mod_two_eq_one
    omega

theorem pyOr_eq_add {a b : Int} (ha : 0 ≤ a) (hb : 0 ≤ b) (h : ∀ i, ¬ (bit a i = true ∧ bit b i = true)) : pyOr a b = a + b := by
  obtain ⟨x, rfl⟩ := Int.eq_ofNat_of_zero_le ha
  obtain ⟨y, rfl⟩ := Int.eq_ofNat_of_zero_le hb
  have : pyOr (x : Int) (y : Int) = ((x ||| y : Nat) : Int) := rfl
  rw [this, or_eq_add x y]
  · rfl
  · intro i hi
    exact h i (by rw [bit_natCast, bit_natCast]; exact hi)

/-- The part of the word that a field contributes. -/
def fieldPart (f : BitField) : Int := f.value % 2 ^ (f.hi - f.lo + 1) * 2 ^ f.lo

theorem fieldPart_nonneg (f : BitField) : 0 ≤ fieldPart f :=
  Int.mul_nonneg (Int.emod_nonneg _ (Int.ne_of_gt (Int.pow_pos (by decide)))) (Int.le_of_lt (Int.pow_pos (by decide)))

theorem bit_fieldPart (f : BitField) (hf : f.lo ≤ f.hi) (i : Nat) :
    bit (fieldPart f) i = (decide (f.lo ≤ i ∧ i ≤ f.hi) && bit f.value (i - f.lo)) := by
  unfold fieldPart
  rw [bit_mul_pow, bit_emod_pow]
  by_cases h1 : f.lo ≤ i
  · by_cases h2 : i ≤ f.hi
    · have : i - f.lo < f.hi - f.lo + 1 := by omega
      simp [h1, h2, this]
    · have : ¬ (i - f.lo < f.hi - f.lo + 1) := by omega
      simp [h1, h2, this]
  · simp [h1]

/-- Fields on clear bits that do not overlap add up. -/
theorem packBits_sum (fs : List BitField) : ∀ (base : Int), 0 ≤ base → (∀ f ∈ fs, FieldOk f) →
    (∀ f ∈ fs, ∀ i, f.lo ≤ i → i ≤ f.hi → bit base i = false) → fs.Pairwise (fun f g => f.hi < g.lo ∨ g.hi < f.lo) →
    packBits base fs = .ok (base + (fs.map fieldPart).foldr (· + ·) 0) := by
  induction fs with
  | nil => intro base _ _ _ _; simp [packBits]
  | cons f fs ih =>
    intro base hb hok hcl hpw
    have hf := hok f (by simp)
    obtain ⟨r, hr⟩ := (packBitsStep_ok_iff base f).2 hf
    have hbit := packBitsStep_bit base f r hr
    have hre : r = base + fieldPart f := by
      rw [← pyOr_eq_add hb (fieldPart_nonneg f)]
      · apply bit_ext
        intro i
        rw [hbit, bit_pyOr, bit_fieldPart f hf.1]
      · intro i
        rw [bit_fieldPart f hf.1]
        rintro ⟨h1, h2⟩
        simp only [Bool.and_eq_true, decide_eq_true_eq] at h2
        rw [hcl f (by simp) i h2.1.1 h2.1.2] at h1
        cases h1
    rw [List.pairwise_cons] at hpw
    unfold packBits
    rw [hr]
    simp only
    rw [ih r (by rw [hre]; have := fieldPart_nonneg f; omega) (fun g hg => hok g (by simp [hg])) ?_ hpw.2, hre]
    · simp only [List.map_cons, List.foldr_cons]
      congr 1; omega
    · intro g hg i h1 h2
      rw [hbit, hcl g (by simp [hg]) i h1 h2]
      have := hpw.1 g hg
      simp only [Bool.false_or, Bool.and_eq_false_iff, decide_eq_false_iff_not]
      left; omega

/-! ## the bytes of a word -/

theorem ofBytes_leBytes (n : Nat) : ∀ v : Int, ((ofLE (leBytes n v) : Nat) : Int) = v % 2 ^ (8 * n) := by
  induction n with
  | zero => intro v; simp [leBytes, ofLE]
  | succ n ih =>
    intro v
    simp only [leBytes, ofLE]
    rw [Int.natCast_add, Int.natCast_mul, ih (v / 256)]
    have h1 : ((BitVec.ofInt 8 v).toNat : Int) = v % 256 := by
      rw [BitVec.toNat_ofInt]
      have := Int.emod_nonneg v (show (256 : Int) ≠ 0 by decide)
      omega
    rw [h1]
    have h2 : (2 : Int) ^ (8 * (n + 1)) = 256 * 2 ^ (8 * n) := by
      rw [show 8 * (n + 1) = 8 + 8 * n by omega, Int.pow_add]; rfl
    rw [h2]
    have h3 := Int.emod_add_mul_ediv v 256
    have hp : (0 : Int) < 2 ^ (8 * n) := Int.pow_pos (by decide)
    have h4 := Int.emod_add_mul_ediv (v / 256) (2 ^ (8 * n))
    have h5 := Int.emod_nonneg v (show (256 : Int) ≠ 0 by decide)
    have h6 := Int.emod_lt_of_pos v (show (0 : Int) < 256 by decide)
    have h7 := Int.emod_nonneg (v / 256) (Int.ne_of_gt hp)
    have h8 := Int.emod_lt_of_pos (v / 256) hp
    generalize v / 256 % 2 ^ (8 * n) = m at *
    generalize hq : v / 256 / 2 ^ (8 * n) = q at *
    generalize hP : (2 : Int) ^ (8 * n) = P at *
    have hv : v = (v % 256 + 256 * m) + 256 * P * q := by
      have : 256 * (m + P * q) = 256 * m + 256 * P * q := by rw [Int.mul_add, Int.mul_assoc]
      omega
    generalize hw : v % 256 = w at *
    show w + 256 * m = v % (256 * P)
    rw [hv, Int.add_mul_emod_self_left, Int.emod_eq_of_lt (by omega) (by omega)]

theorem ofBE_reverse (l : Bytes) : ofBE l.reverse = ofLE l := by
  unfold ofBE
  rw [List.foldl_reverse]
  induction l with
  | nil => rfl
  | cons b l ih => simp only [List.foldr_cons, ofLE, ih]; omega

/-- `n` bytes of `v` in the chosen order. -/
def wordBytes (be : Bool) (n : Nat) (v : Int) : Bytes := if be then beBytes n v else leBytes n v

theorem wordBytes_length (be : Bool) (n : Nat) (v : Int) : (wordBytes be n v).length = n := by
  unfold wordBytes beBytes
  split <;> simp [leBytes_length]

theorem ofBytes_wordBytes (be : Bool) (n : Nat) (v : Int) : ((ofBytes be (wordBytes be n v) : Nat) : Int) = v % 2 ^ (8 * n) := by
  unfold ofBytes wordBytes beBytes
  cases be
  · simp only [Bool.false_eq_true, if_false]; exact ofBytes_leBytes n v
  · simp only [if_true]; rw [ofBE_reverse]; exact ofBytes_leBytes n v

theorem pack_one_u (be : Bool) (f : Fmt) (bits : Nat) (hf : ∀ v : Int, 0 ≤ v → v < 2 ^ bits → f.fits v = true) (v : Int) (h0 : 0 ≤ v)
    (h1 : v < 2 ^ bits) : packAll be f [maskArg bits (some v)] = .ok (wordBytes be f.size v) := by
  rw [maskArg_eq, Option.getD_some, Int.emod_eq_of_lt h0 h1]
  unfold packAll
  simp only [List.length_cons, List.length_nil, Nat.zero_add, List.replicate_one, structPack, hf v h0 h1, if_true, List.append_nil]
  rfl

theorem pack32u (be : Bool) (v : Int) (h0 : 0 ≤ v) (h1 : v < 2 ^ 32) :
    (if be then packBe32u [some v] else packLe32u [some v]) = .ok (wordBytes be 4 v) := by
  have hf : ∀ v : Int, 0 ≤ v → v < 2 ^ 32 → Fmt.I.fits v = true := by
    intro v h0 h1; simp only [Fmt.fits, decide_eq_true_eq]; exact ⟨h0, h1⟩
  cases be
  · exact pack_one_u false .I 32 hf v h0 h1
  · exact pack_one_u true .I 32 hf v h0 h1

theorem pack16u (be : Bool) (v : Int) (h0 : 0 ≤ v) (h1 : v < 2 ^ 16) :
    (if be then packBe16u [some v] else packLe16u [some v]) = .ok (wordBytes be 2 v) := by
  have hf : ∀ v : Int, 0 ≤ v → v < 2 ^ 16 → Fmt.H.fits v = true := by
    intro v h0 h1; simp only [Fmt.fits, decide_eq_true_eq]; exact ⟨h0, h1⟩
  cases be
  · exact pack_one_u false .H 16 hf v h0 h1
  · exact pack_one_u true .H 16 hf v h0 h1

end Necro
