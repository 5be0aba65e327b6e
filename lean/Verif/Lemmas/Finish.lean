import Verif.Lemmas.Platform
import Verif.Lemmas.Pack
/-!
# GBA, Genesis and PSX: helper lemmas
-/

namespace Necro
open Spec
open M (throw get modify lift forEach)

theorem window_succ (bs : Bytes) (a n : Nat) (h : a + n < bs.length) :
    window bs a (n + 1) = window bs a n ++ [bs.getD (a + n) 0] := by
  unfold window
  rw [List.take_add_one, List.getElem?_drop, List.getElem?_eq_getElem h]
  simp [List.getD, List.getElem?_eq_getElem h]

theorem gbaFold_total (bs : Bytes) (a : Nat) : ∀ (n : Nat) (acc : Int), a + n ≤ bs.length →
    ((List.range n).map (a + ·)).foldl (fun x i => x - ((bs.getD i 0).toNat : Int)) acc = acc - (total (window bs a n) : Int)
  | 0, acc, _ => by simp [window, total]
  | n + 1, acc, h => by
    rw [List.range_succ, List.map_append, List.foldl_append, gbaFold_total bs a n acc (by omega), window_succ bs a n (by omega),
      total_append]
    simp [total]
    omega

/-- The image after the fix of gba.py. -/
def gbaFixed (bs : Bytes) : Bytes :=
  bs.set 0xBD (BitVec.ofInt 8 (0 - (total (window bs 0xA0 (0xBD - 0xA0)) : Int) - 0x19))

theorem gbaFix_ok {s : St} (h : 0xBE ≤ s.bytes.length) : gbaFix s = (.ok (), { s with bytes := gbaFixed s.bytes }) := by
  unfold gbaFix
  rw [bind_eq, gbaLoop_ok s _ _ (by
    intro i hi
    simp only [List.mem_map, List.mem_range] at hi
    obtain ⟨j, hj, rfl⟩ := hi
    omega)]
  simp only
  rw [setByte_ok (by omega), ofInt_and_ff, gbaFold_total _ _ _ _ (by omega)]
  rfl

theorem gbaFix_short {s : St} (h : s.bytes.length < 0xBE) : gbaFix s = (.error .indexError, s) := by
  unfold gbaFix
  rw [bind_eq]
  by_cases h1 : s.bytes.length ≤ 0xBC
  · rw [gbaLoop_fail s _ _ ⟨0xBC, by decide, h1⟩]
  rw [gbaLoop_ok s _ _ (by
    intro i hi
    simp only [List.mem_map, List.mem_range] at hi
    obtain ⟨j, hj, rfl⟩ := hi
    omega)]
  simp only
  rw [setByte_fail (by omega)]

theorem window_congr {bs bs' : Bytes} {a n : Nat} (hl : bs'.length = bs.length)
    (h : ∀ i, a ≤ i → i < a + n → bs'[i]? = bs[i]?) : window bs' a n = window bs a n := by
  apply List.ext_getElem?
  intro i
  unfold window
  rw [List.getElem?_take, List.getElem?_take]
  split
  · rw [List.getElem?_drop, List.getElem?_drop]
    exact h _ (by omega) (by omega)
  · rfl

theorem gbaFixed_window (bs : Bytes) : window (gbaFixed bs) 0xA0 (0xBD - 0xA0) = window bs 0xA0 (0xBD - 0xA0) :=
  window_congr (by simp [gbaFixed]) fun i _ _ => by
    rw [gbaFixed, List.getElem?_set_ne (by omega)]

theorem gbaFixed_check (bs : Bytes) (h : 0xBE ≤ bs.length) : GbaCheck (gbaFixed bs) := by
  unfold GbaCheck
  have e : (0xBD - 0xA0 + 1 : Nat) = (0xBD - 0xA0) + 1 := rfl
  rw [e, window_succ _ _ _ (by simp [gbaFixed]; omega), total_append, gbaFixed_window]
  generalize hg : window bs 0xA0 (0xBD - 0xA0) = w
  have e2 : (gbaFixed bs).getD (0xA0 + (0xBD - 0xA0)) 0 = BitVec.ofInt 8 (0 - (total w : Int) - 0x19) := by
    rw [← hg, gbaFixed]
    exact (getD_set ..).trans (if_pos ⟨rfl, by omega⟩)
  rw [e2]
  simp only [total, List.map_cons, List.map_nil, List.sum_cons, List.sum_nil, BitVec.toNat_ofInt]
  omega

theorem gbaFixed_idem (bs : Bytes) : gbaFixed (gbaFixed bs) = gbaFixed bs := by
  show (gbaFixed bs).set 0xBD (BitVec.ofInt 8 (0 - (total (window (gbaFixed bs) 0xA0 (0xBD - 0xA0)) : Int) - 0x19)) = _
  rw [gbaFixed_window]
  simp [gbaFixed]

theorem pyOr_word (a b : Byte) : pyOr (pyShl (a.toNat : Int) 8) (b.toNat : Int) = ((256 * a.toNat + b.toNat : Nat) : Int) := by
  apply bit_ext
  intro i
  have hb : b.toNat < 2 ^ 8 := b.isLt
  have e : 256 * a.toNat + b.toNat = 2 ^ 8 * a.toNat + b.toNat := rfl
  rw [bit_pyOr, bit_pyShl, bit_natCast, bit_natCast, bit_natCast, e, Nat.testBit_two_pow_mul_add _ hb]
  by_cases hi : i < 8
  · simp [hi, show ¬ 8 ≤ i by omega]
  · have : b.toNat.testBit i = false := Nat.testBit_lt_two_pow (Nat.lt_of_lt_of_le hb (Nat.pow_le_pow_right (by decide) (by omega)))
    simp [hi, this, show 8 ≤ i by omega]

theorem genesisLoop_ok (s : St) : ∀ (n i : Nat) (acc : Int), i + 2 * n ≤ s.bytes.length →
    genesisLoop n i acc s = (.ok (acc + ((((List.range n).map fun k => wordAt s.bytes (i + 2 * k)).sum : Nat) : Int)), s)
  | 0, _, acc, _ => by simp [genesisLoop, pure_eq]
  | n + 1, i, acc, h => by
    unfold genesisLoop
    rw [bind_eq, readByte_ok (by omega)]
    simp only
    rw [bind_eq, readByte_ok (by omega)]
    simp only
    rw [genesisLoop_ok s n (i + 2) _ (by omega), pyOr_word, List.range_succ_eq_map, List.map_cons, List.sum_cons, List.map_map]
    have e : ((List.range n).map ((fun k => wordAt s.bytes (i + 2 * k)) ∘ Nat.succ)) =
        (List.range n).map fun k => wordAt s.bytes (i + 2 + 2 * k) := by
      apply List.map_congr_left
      intro k _
      simp only [Function.comp_apply, Nat.succ_eq_add_one, Nat.mul_add, Nat.mul_one, Nat.add_assoc, Nat.add_comm 2]
    rw [e]
    simp only [wordAt, Nat.mul_zero, Nat.add_zero, Int.natCast_add, Int.add_assoc]

theorem genesisLoop_fail (s : St) : ∀ (n i : Nat) (acc : Int), 0 < n → s.bytes.length < i + 2 * n →
    genesisLoop n i acc s = (.error .indexError, s)
  | 0, _, _, h0, _ => absurd h0 (by decide)
  | n + 1, i, acc, _, h => by
    unfold genesisLoop
    rw [bind_eq]
    by_cases h1 : i < s.bytes.length
    · rw [readByte_ok h1]
      simp only
      rw [bind_eq]
      by_cases h2 : i + 1 < s.bytes.length
      · rw [readByte_ok h2]
        simp only
        exact genesisLoop_fail s n _ _ (by omega) (by omega)
      · rw [readByte_fail (by omega)]
    · rw [readByte_fail (by omega)]

/-- The sum computed by genesis.py. -/
def genesisSum (bs : Bytes) : Nat := ((List.range ((bs.length - 0x200) / 2)).map fun i => wordAt bs (0x200 + 2 * i)).sum

/-- The image after the fix of genesis.py. -/
def genesisFixed (bs : Bytes) : Bytes :=
  (bs.set 0x18e (BitVec.ofInt 8 (pyShr (genesisSum bs : Int) 8))).set 0x18f (BitVec.ofInt 8 (genesisSum bs : Int))

theorem genesisFix_ok {s : St} (h : 0x190 ≤ s.bytes.length) (he : s.bytes.length ≤ 0x200 ∨ s.bytes.length % 2 = 0) :
    genesisFix s = (.ok (), { s with bytes := genesisFixed s.bytes }) := by
  unfold genesisFix
  rw [bind_eq, get_eq]
  simp only
  have e : (s.bytes.length - 0x200 + 1) / 2 = (s.bytes.length - 0x200) / 2 := by omega
  by_cases hs : s.bytes.length ≤ 0x200
  · have e0 : (s.bytes.length - 0x200) / 2 = 0 := by omega
    have eg : genesisSum s.bytes = 0 := by simp only [genesisSum, e0, List.range_zero, List.map_nil, List.sum_nil]
    rw [e, e0, bind_eq]
    simp only [genesisLoop, pure_eq]
    rw [bind_eq, setByte_ok (by omega)]
    simp only
    rw [setByte_ok (by simp; omega), ofInt_and_ff, ofInt_and_ff]
    simp only [genesisFixed, eg]
    rfl
  · rw [e, bind_eq, genesisLoop_ok s _ _ _ (by omega)]
    simp only
    rw [bind_eq, setByte_ok (by omega)]
    simp only
    rw [setByte_ok (by simp; omega), ofInt_and_ff, ofInt_and_ff, Int.zero_add]
    rfl

theorem genesisFix_short {s : St} (h : s.bytes.length < 0x190) : (genesisFix s).1 = .error .indexError := by
  unfold genesisFix
  rw [bind_eq, get_eq]
  simp only
  have e : (s.bytes.length - 0x200 + 1) / 2 = 0 := by omega
  rw [e, bind_eq]
  simp only [genesisLoop, pure_eq]
  rw [bind_eq]
  by_cases h1 : s.bytes.length ≤ 0x18e
  · rw [setByte_fail h1]
  · rw [setByte_ok (by omega)]
    simp only
    rw [setByte_fail (by simp; omega)]

theorem genesisFix_odd {s : St} (h : 0x200 < s.bytes.length) (ho : s.bytes.length % 2 = 1) :
    genesisFix s = (.error .indexError, s) := by
  unfold genesisFix
  rw [bind_eq, get_eq]
  simp only
  rw [bind_eq, genesisLoop_fail s _ _ _ (by omega) (by omega)]

theorem genesisFixed_outside (bs : Bytes) : SameOutside 0x18E 0x18F bs (genesisFixed bs) := by
  refine ⟨by simp [genesisFixed], fun i hi => ?_⟩
  rw [genesisFixed, List.getElem?_set_ne (by omega), List.getElem?_set_ne (by omega)]

theorem genesisFixed_sum (bs : Bytes) : genesisSum (genesisFixed bs) = genesisSum bs := by
  unfold genesisSum
  rw [(genesisFixed_outside bs).1]
  congr 1
  apply List.map_congr_left
  intro k _
  unfold wordAt
  simp only [List.getD, (genesisFixed_outside bs).2 (0x200 + 2 * k) (.inr (by omega)),
    (genesisFixed_outside bs).2 (0x200 + 2 * k + 1) (.inr (by omega))]

theorem genesisFixed_check (bs : Bytes) (h : 0x190 ≤ bs.length) : GenesisCheck (genesisFixed bs) := by
  have e := genesisFixed_sum bs
  unfold GenesisCheck
  show _ = genesisSum (genesisFixed bs) % 2 ^ 16
  rw [e, ← word_of_int]
  unfold wordAt genesisFixed
  rw [getD_set, if_neg (fun h => absurd h.1 (by decide)), getD_set, if_pos ⟨rfl, by omega⟩, getD_set,
    if_pos ⟨rfl, by simp; omega⟩]

theorem genesisFixed_idem (bs : Bytes) : genesisFixed (genesisFixed bs) = genesisFixed bs := by
  show ((genesisFixed bs).set 0x18e (BitVec.ofInt 8 (pyShr (genesisSum (genesisFixed bs) : Int) 8))).set 0x18f
    (BitVec.ofInt 8 (genesisSum (genesisFixed bs) : Int)) = _
  rw [genesisFixed_sum]
  unfold genesisFixed
  rw [List.set_comm (i := 0x18f) (j := 0x18e) _ _ (by decide), List.set_set, List.set_set]

/-- Zero bytes. -/
@[irreducible] def zeros (n : Nat) : Bytes := List.replicate n 0#8

theorem zeros_length (n : Nat) : (zeros n).length = n := by unfold zeros; exact List.length_replicate

theorem seekWrite_end (f : Bytes) (pos : Nat) (data : Bytes) (h : f.length ≤ pos) :
    seekWrite f pos data = f ++ zeros (pos - f.length) ++ data := by
  unfold seekWrite zeros
  rw [List.take_of_length_le (by simp; omega), List.drop_of_length_le (by omega), List.append_nil]

/-- The bytes of an ascii text. -/
def ascii (s : String) : Bytes := s.toList.map fun c => BitVec.ofNat 8 c.toNat

/-- The header written by psx.py for a size field. -/
def psxHeader (size : Bytes) : Bytes :=
  ascii "PS-X EXE" ++ zeros 8 ++ psxRegs size ++ zeros 40 ++ ascii "Sony Computer Entertainment Inc. for Europe area" ++ zeros 1924

theorem ascii_magic : (ascii "PS-X EXE").length = 8 := by decide
theorem ascii_region : (ascii "Sony Computer Entertainment Inc. for Europe area").length = 48 := by decide

theorem psxRegs_length (size : Bytes) (h : size.length = 4) : (psxRegs size).length = 20 := by
  simp [psxRegs, h]

theorem psxHeader_length (size : Bytes) (h : size.length = 4) : (psxHeader size).length = 0x800 := by
  simp only [psxHeader, List.length_append, zeros_length, psxRegs_length size h, ascii_magic, ascii_region]

theorem seekWrite_pad (f data : Bytes) (pos n : Nat) (h : f.length + n = pos) :
    seekWrite f pos data = f ++ zeros n ++ data := by
  rw [seekWrite_end f pos data (by omega), show pos - f.length = n by omega]

theorem psxParts (magic regs region code : Bytes) (h1 : magic.length = 8) (h2 : regs.length = 20) (h3 : region.length = 48) :
    seekWrite (seekWrite (seekWrite magic 0x10 regs) 0x4C region) 0x800 code =
      magic ++ zeros 8 ++ regs ++ zeros 40 ++ region ++ zeros 1924 ++ code := by
  rw [seekWrite_pad magic regs 0x10 8 (by omega)]
  rw [seekWrite_pad _ region 0x4C 40 (by rw [List.length_append, List.length_append, zeros_length]; omega)]
  rw [seekWrite_pad _ code 0x800 1924 (by
    rw [List.length_append, List.length_append, List.length_append, List.length_append, zeros_length, zeros_length]; omega)]

theorem psxWrite_ok (magic size region code : Bytes) (h1 : magic.length = 8) (h2 : size.length = 4) (h3 : region.length = 48) :
    psxWrite (.ok magic) (.ok size) (.ok region) code =
      .ok (magic ++ zeros 8 ++ psxRegs size ++ zeros 40 ++ region ++ zeros 1924 ++ code) := by
  have h0 : seekWrite [] 0 magic = magic := by simp [seekWrite]
  rw [← psxParts magic _ region code h1 (psxRegs_length size h2) h3, psxWrite, h0]

theorem ascii_magic_eq : encodeAscii "PS-X EXE".toList = .ok (ascii "PS-X EXE") := by decide
theorem ascii_region_eq : encodeAscii "Sony Computer Entertainment Inc. for Europe area".toList =
    .ok (ascii "Sony Computer Entertainment Inc. for Europe area") := by decide +kernel

theorem psxFile_eq (code size : Bytes) (hs : packLe32u [some ((psxPad code).length : Int)] = .ok size) (hl : size.length = 4) :
    psxFile code = .ok (psxHeader size ++ psxPad code) := by
  have h := psxWrite_ok _ size _ (psxPad code) ascii_magic hl ascii_region
  rw [← ascii_magic_eq, ← ascii_region_eq, ← hs] at h
  exact h

theorem psxPad_length (code : Bytes) : (psxPad code).length = 2048 * ((code.length + 2047) / 2048) := by
  unfold psxPad
  simp only
  split
  · rw [List.length_append, List.length_replicate]
    omega
  · omega

theorem psxPad_eq (code : Bytes) : ∃ n, psxPad code = code ++ List.replicate n 0#8 := by
  unfold psxPad
  simp only
  split
  · exact ⟨_, rfl⟩
  · exact ⟨0, by simp⟩

end Necro
