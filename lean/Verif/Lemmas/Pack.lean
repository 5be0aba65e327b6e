import Verif.Lemmas.Bits
import Verif.Spec.Pack

namespace Necro
open Spec

@[simp] theorem leBytes_length (n : Nat) (v : Int) : (leBytes n v).length = n := by
  induction n generalizing v with
  | zero => rfl
  | succ n ih => simp [leBytes, ih]

@[simp] theorem beBytes_length (n : Nat) (v : Int) : (beBytes n v).length = n := by
  simp [beBytes]

theorem ofLE_append (a b : List (BitVec 8)) : ofLE (a ++ b) = ofLE a + 256 ^ a.length * ofLE b := by
  induction a with
  | nil => simp [ofLE]
  | cons x a ih => simp only [List.cons_append, ofLE, ih, List.length_cons, Nat.pow_succ]; grind

theorem ofLE_lt (a : List (BitVec 8)) : ofLE a < 256 ^ a.length := by
  induction a with
  | nil => simp [ofLE]
  | cons x a ih =>
    have := x.isLt
    simp only [ofLE, List.length_cons, Nat.pow_succ]
    omega

theorem ofBE_foldl (bs : List (BitVec 8)) (acc : Nat) :
    bs.foldl (fun acc b => 256 * acc + b.toNat) acc = 256 ^ bs.length * acc + ofLE bs.reverse := by
  induction bs generalizing acc with
  | nil => simp [ofLE]
  | cons b bs ih =>
    rw [List.foldl_cons, ih]
    simp only [List.length_cons, List.reverse_cons, ofLE_append, List.length_reverse, ofLE,
      Nat.pow_succ]
    grind

theorem ofBE_eq (bs : List (BitVec 8)) : ofBE bs = ofLE bs.reverse := by
  simp [ofBE, ofBE_foldl]

theorem ofLE_leBytes (n : Nat) (v : Int) : (ofLE (leBytes n v) : Int) = v % 256 ^ n := by
  induction n generalizing v with
  | zero => simp [leBytes, ofLE, Int.emod_one]
  | succ n ih =>
    have hb : ((BitVec.ofInt 8 v).toNat : Int) = v % 256 := by
      rw [BitVec.toNat_ofInt]
      have : (0:Int) ≤ v % 256 := Int.emod_nonneg _ (by decide)
      simp; omega
    simp only [leBytes, ofLE, Int.natCast_add, Int.natCast_mul, ih, hb, Int.pow_succ]
    have h1 : (0:Int) < 256 ^ n := Int.pow_pos (by decide)
    rw [Int.mul_comm (256 ^ n) 256]
    have e1 := Int.emod_add_mul_ediv v 256
    have e2 := Int.emod_add_mul_ediv (v / 256) (256 ^ n)
    have e3 : v / (256 * 256 ^ n) = v / 256 / 256 ^ n :=
      (Int.ediv_ediv_of_nonneg (by decide)).symm
    have e4 := Int.emod_add_mul_ediv v (256 * 256 ^ n)
    rw [e3] at e4
    grind

theorem ofBytes_enc (be : Bool) (n : Nat) (v : Int) :
    (ofBytes be (if be then beBytes n v else leBytes n v) : Int) = v % 256 ^ n := by
  cases be <;> simp [ofBytes, ofBE_eq, beBytes, ofLE_leBytes]

@[simp] theorem enc_length (be : Bool) (n : Nat) (v : Int) :
    (if be then beBytes n v else leBytes n v).length = n := by
  cases be <;> simp

theorem structPack_fits (be : Bool) (f : Fmt) (vs : List Int) (h : ∀ v ∈ vs, f.fits v = true) :
    packAll be f vs = .ok (vs.flatMap fun v => if be then beBytes f.size v else leBytes f.size v) := by
  unfold packAll
  induction vs with
  | nil => rfl
  | cons v vs ih =>
    have h1 := h v (by simp)
    have h2 := ih (fun w hw => h w (by simp [hw]))
    simp [List.replicate_succ, structPack, h1, h2]

theorem chunks_flatMap (n : Nat) (g : Int → Bytes) (hg : ∀ v, (g v).length = n) (vs : List Int) :
    chunks n vs.length (vs.flatMap g) = vs.map g := by
  induction vs with
  | nil => rfl
  | cons v vs ih =>
    simp only [List.length_cons, List.flatMap_cons, chunks, List.map_cons]
    rw [List.take_append_of_le_length (by simp [hg]), List.drop_append_of_le_length (by simp [hg]),
      List.take_of_length_le (by simp [hg]), List.drop_of_length_le (by simp [hg])]
    simp [ih]

theorem length_flatMap_const (n : Nat) (g : Int → Bytes) (hg : ∀ v, (g v).length = n) (vs : List Int) :
    (vs.flatMap g).length = n * vs.length := by
  induction vs with
  | nil => rfl
  | cons v vs ih => simp [hg, ih, Nat.mul_add, Nat.add_comm]

theorem maskArg_eq (bits : Nat) (a : Option Int) : maskArg bits a = a.getD 0 % 2 ^ bits := by
  cases a <;> simp [maskArg, pyAnd_mask]

theorem pyAnd_pow_eq_zero (v : Int) (k : Nat) : pyAnd v (pyShl 1 k) = 0 ↔ bit v k = false := by
  have h1 : ∀ i, bit (pyShl 1 k) i = decide (i = k) := by
    intro i
    rw [bit_pyShl]
    by_cases h : i = k
    · subst h; simp [bit]
    · by_cases h2 : k ≤ i
      · have : ∃ j, i - k = j + 1 := ⟨i - k - 1, by omega⟩
        obtain ⟨j, hj⟩ := this
        simp only [h2, hj, h, decide_true, decide_false, Bool.true_and]
        have := bit_natCast 1 (j+1)
        simp only [Int.natCast_one] at this
        rw [this]
        simp [Nat.testBit_succ]
      · simp [h, h2]
  constructor
  · intro h
    have := congrArg (fun x => bit x k) h
    simpa [h1, bit_zero] using this
  · intro h
    apply bit_ext
    intro i
    rw [bit_pyAnd, h1, bit_zero]
    by_cases hi : i = k
    · subst hi; simp [h]
    · simp [hi]

/-- `neg_fix` on an in-range value, in closed form. -/
theorem negFix_eq (v : Int) (bits : Nat) (hb : 1 ≤ bits) (h0 : 0 ≤ v) (h1 : v < 2 ^ bits) :
    negFix v bits = if 2 * v < 2 ^ bits then v else v - 2 ^ bits := by
  unfold negFix
  obtain ⟨b, rfl⟩ : ∃ b, bits = b + 1 := ⟨bits - 1, by omega⟩
  have hp : (0 : Int) < 2 ^ b := Int.pow_pos (by decide)
  simp only [Nat.add_sub_cancel, ne_eq, pyAnd_pow_eq_zero, Bool.not_eq_false]
  simp only [Int.pow_succ] at h1 ⊢
  have hs : pyShl 1 (b + 1) = 2 ^ b * 2 := by simp [pyShl, Int.pow_succ]
  have hd : bit v b = true ↔ ¬ (2 * v < 2 ^ b * 2) := by
    simp only [bit, decide_eq_true_eq]
    by_cases hv : v < 2 ^ b
    · rw [Int.ediv_eq_zero_of_lt h0 hv]; omega
    · have : v / 2 ^ b = 1 := by
        have e1 := Int.emod_add_mul_ediv v (2 ^ b)
        have e2 := Int.emod_nonneg v (b := 2 ^ b) (by omega)
        have e3 := Int.emod_lt_of_pos v hp
        have l1 : 1 ≤ v / 2 ^ b := by
          apply Int.le_of_lt_add_one
          apply Int.lt_of_mul_lt_mul_left (a := 2 ^ b) _ (by omega)
          grind
        have l2 : v / 2 ^ b < 2 := by
          apply Int.ediv_lt_of_lt_mul hp
          omega
        omega
      rw [this]; omega
  rw [hs]
  by_cases hv : 2 * v < 2 ^ b * 2
  · have : ¬ (bit v b = true) := by rw [hd]; omega
    simp [this, hv]
  · have : bit v b = true := by rw [hd]; omega
    simp [this, hv]; omega

theorem maskArgS_eq (bits : Nat) (hb : 1 ≤ bits) (a : Option Int) :
    maskArgS bits a = Int.bmod (a.getD 0) (2 ^ bits) := by
  have hp : (0 : Int) < 2 ^ bits := Int.pow_pos (by decide)
  cases a with
  | none => simp [maskArgS]
  | some v =>
    simp only [maskArgS, pyAnd_mask, Option.getD_some]
    rw [negFix_eq _ _ hb (Int.emod_nonneg _ (by omega)) (Int.emod_lt_of_pos _ hp)]
    obtain ⟨b, rfl⟩ : ∃ b, bits = b + 1 := ⟨bits - 1, by omega⟩
    have hc : ((2 ^ (b + 1) : Nat) : Int) = 2 ^ (b+1) := by simp
    rw [Int.bmod_def, hc]
    have e : ((2 : Int) ^ (b+1) + 1) / 2 = 2 ^ b := by
      rw [Int.pow_succ]; omega
    rw [e]
    simp only [Int.pow_succ]
    generalize v % (2 ^ b * 2) = w
    by_cases h : 2 * w < 2 ^ b * 2
    · have : w < 2 ^ b := by omega
      simp [h, this]
    · have : ¬ w < 2 ^ b := by omega
      simp [h, this]

theorem toSigned_emod (bits : Nat) (hb : 1 ≤ bits) (n : Nat) (v : Int) (h : (n : Int) = v % 2 ^ bits) :
    toSigned bits n = Int.bmod v (2 ^ bits) := by
  obtain ⟨b, rfl⟩ : ∃ b, bits = b + 1 := ⟨bits - 1, by omega⟩
  have hc : ((2 ^ (b + 1) : Nat) : Int) = 2 ^ (b+1) := by simp
  rw [Int.bmod_def, hc, ← h]
  have e : ((2 : Int) ^ (b+1) + 1) / 2 = 2 ^ b := by rw [Int.pow_succ]; omega
  rw [e]
  unfold toSigned
  simp only [Nat.pow_succ, Int.pow_succ]
  have : ((2 ^ b : Nat) : Int) = 2 ^ b := by simp
  by_cases h : 2 * n < 2 ^ b * 2
  · have : (n : Int) < 2 ^ b := by omega
    simp [h, this]
  · have : ¬ (n : Int) < 2 ^ b := by omega
    simp [h, this]

theorem bmod_range (v : Int) (b : Nat) :
    -(2 ^ b) ≤ Int.bmod v (2 ^ (b + 1)) ∧ Int.bmod v (2 ^ (b + 1)) < 2 ^ b := by
  have hp : 0 < 2 ^ b := Nat.pow_pos (by decide)
  have h1 := Int.le_bmod (x := v) (m := 2 ^ (b + 1)) (Nat.pow_pos (by decide))
  have h2 := Int.bmod_lt (x := v) (m := 2 ^ (b + 1)) (Nat.pow_pos (by decide))
  have hc : ((2 ^ (b + 1) : Nat) : Int) = 2 ^ b * 2 := by simp [Int.pow_succ]
  rw [hc] at h1 h2
  omega

/-- The generic packer lemma: unsigned. -/
theorem isPacker_unsigned (be : Bool) (f : Fmt) (bits : Nat) (hs : f.size = bits / 8)
    (hp : (256 : Int) ^ f.size = 2 ^ bits)
    (hfit : ∀ v : Int, f.fits (v % 2 ^ bits) = true) :
    IsPacker (fun args => packAll be f (args.map (maskArg bits))) bits be false := by
  intro args
  refine ⟨_, structPack_fits be f _ ?_, ?_, ?_⟩
  · intro v hv
    obtain ⟨a, _, rfl⟩ := List.mem_map.1 hv
    rw [maskArg_eq]; exact hfit _
  · rw [length_flatMap_const f.size _ (by intro v; simp)]; simp [hs]
  · have hc := chunks_flatMap f.size (fun v => if be then beBytes f.size v else leBytes f.size v)
      (by intro v; simp) (args.map (maskArg bits))
    rw [List.length_map, hs] at hc
    rw [hs, hc, List.map_map, List.map_map]
    apply List.map_congr_left
    intro a _
    simp only [Function.comp, decodeField, fieldValue, Bool.false_eq_true, if_false]
    rw [maskArg_eq, ← hs, ofBytes_enc, hp, Int.emod_emod]

/-- The generic packer lemma: signed. -/
theorem isPacker_signed (be : Bool) (f : Fmt) (bits : Nat) (hb : 1 ≤ bits) (hs : f.size = bits / 8)
    (hp : (256 : Int) ^ f.size = 2 ^ bits)
    (hfit : ∀ v : Int, f.fits (Int.bmod v (2 ^ bits)) = true) :
    IsPacker (fun args => packAll be f (args.map (maskArgS bits))) bits be true := by
  intro args
  refine ⟨_, structPack_fits be f _ ?_, ?_, ?_⟩
  · intro v hv
    obtain ⟨a, _, rfl⟩ := List.mem_map.1 hv
    rw [maskArgS_eq _ hb]; exact hfit _
  · rw [length_flatMap_const f.size _ (by intro v; simp)]; simp [hs]
  · have hc := chunks_flatMap f.size (fun v => if be then beBytes f.size v else leBytes f.size v)
      (by intro v; simp) (args.map (maskArgS bits))
    rw [List.length_map, hs] at hc
    rw [hs, hc, List.map_map, List.map_map]
    apply List.map_congr_left
    intro a _
    simp only [Function.comp, decodeField, fieldValue, if_true]
    rw [maskArgS_eq _ hb]
    rw [toSigned_emod bits hb _ (Int.bmod (a.getD 0) (2 ^ bits)), Int.bmod_bmod]
    rw [← hs, ofBytes_enc, hp]

end Necro
