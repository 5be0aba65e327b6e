import Verif.Lemmas.Finish
import Verif.Lemmas.Link
import Verif.Props.Link
/-!
# Console images: C44, C45, C47, C48
-/

namespace Necro
open Spec
open M (throw get modify lift forEach)

/-! ## Game Boy -/

theorem link_gameboy (base : Dialect) (k : LinkerKind) (s : St) : link (gameboyOn base) k s =
    match resolveLabels (gameboyOn base) k s with
    | (.ok _, s1) => gameboyFix s1
    | (.error e, s1) => (.error e, s1) := by
  show (resolveLabels (gameboyOn base) k >>= fun _ => gameboyFix) s = _
  rw [bind_eq]
  cases resolveLabels (gameboyOn base) k s with
  | mk r s1 => cases r <;> rfl

/-- Linking a Game Boy image ends with an error when resolving the references does;
otherwise it succeeds exactly for images that contain a whole header. -/
theorem C44_succeeds (base : Dialect) (k : LinkerKind) (s s1 : St)
    (h : resolveLabels (gameboyOn base) k s = (.ok (), s1)) :
    (link (gameboyOn base) k s).1 = if 0x150 ≤ s1.bytes.length then .ok () else .error .indexError := by
  rw [link_gameboy, h]
  simp only
  split
  · rename_i hl
    rw [gameboyFix_ok hl]
  · exact gameboyFix_short (by omega)

/-- A linked image passes the check of the boot ROM, whatever the program did to the header. -/
theorem C44_boot_check (base : Dialect) (k : LinkerKind) (s s' : St) (h : link (gameboyOn base) k s = (.ok (), s')) :
    BootCheck s'.bytes := by
  rw [link_gameboy] at h
  cases hr : resolveLabels (gameboyOn base) k s with
  | mk r s1 =>
    rw [hr] at h
    cases r with
    | error e => cases h
    | ok u =>
      simp only at h
      by_cases hl : 0x150 ≤ s1.bytes.length
      · rw [gameboyFix_ok hl] at h
        cases h
        exact gameboyFixed_boot _ hl
      · have := gameboyFix_short (s := s1) (by omega)
        rw [h] at this
        cases this

/-- The checksums are the only bytes that differ from the image with its references
resolved, and nothing but the bytes changes. -/
theorem C44_only_checksums (base : Dialect) (k : LinkerKind) (s s1 s' : St)
    (h1 : resolveLabels (gameboyOn base) k s = (.ok (), s1)) (h : link (gameboyOn base) k s = (.ok (), s')) :
    SameOutside 0x14D 0x14F s1.bytes s'.bytes ∧ s' = { s1 with bytes := s'.bytes } := by
  rw [link_gameboy, h1] at h
  simp only at h
  by_cases hl : 0x150 ≤ s1.bytes.length
  · rw [gameboyFix_ok hl] at h
    cases h
    exact ⟨gameboyFixed_outside _, rfl⟩
  · have := gameboyFix_short (s := s1) (by omega)
    rw [h] at this
    cases this

/-- The global checksum of a linked image is the right one exactly if the two bytes that hold
it were zero before. -/
theorem C45_exact (base : Dialect) (k : LinkerKind) (s s1 s' : St)
    (h1 : resolveLabels (gameboyOn base) k s = (.ok (), s1)) (h : link (gameboyOn base) k s = (.ok (), s')) :
    GlobalCheck s'.bytes ↔ s1.bytes.getD 0x14E 0 = 0 ∧ s1.bytes.getD 0x14F 0 = 0 := by
  rw [link_gameboy, h1] at h
  simp only at h
  by_cases hl : 0x150 ≤ s1.bytes.length
  · rw [gameboyFix_ok hl] at h
    cases h
    unfold GlobalCheck
    rw [gameboyFixed_word _ hl]
    generalize total (List.take 0x14E (gameboyFixed s1.bytes)) = a
    generalize total (List.drop 0x150 (gameboyFixed s1.bytes)) = b
    have e : ∀ x : Byte, x = 0 ↔ x.toNat = 0 := fun x =>
      ⟨fun h => by rw [h]; rfl, fun h => BitVec.eq_of_toNat_eq h⟩
    rw [e, e]
    have l1 : (s1.bytes.getD 0x14E 0).toNat < 256 := (s1.bytes.getD 0x14E 0).isLt
    have l2 : (s1.bytes.getD 0x14F 0).toNat < 256 := (s1.bytes.getD 0x14F 0).isLt
    omega
  · have := gameboyFix_short (s := s1) (by omega)
    rw [h] at this
    cases this

/-- In general the two old bytes are counted as well. -/
theorem C45_value (base : Dialect) (k : LinkerKind) (s s1 s' : St)
    (h1 : resolveLabels (gameboyOn base) k s = (.ok (), s1)) (h : link (gameboyOn base) k s = (.ok (), s')) :
    wordAt s'.bytes 0x14E = (total (s'.bytes.take 0x14E) + total (s'.bytes.drop 0x150) +
      (s1.bytes.getD 0x14E 0).toNat + (s1.bytes.getD 0x14F 0).toNat) % 2 ^ 16 := by
  rw [link_gameboy, h1] at h
  simp only at h
  by_cases hl : 0x150 ≤ s1.bytes.length
  · rw [gameboyFix_ok hl] at h
    cases h
    exact gameboyFixed_word _ hl
  · have := gameboyFix_short (s := s1) (by omega)
    rw [h] at this
    cases this

/-- A second link breaks the global checksum of an image for which it was not zero, although
it keeps the boot check: linking is not idempotent here. -/
theorem C45_relink (base : Dialect) (k : LinkerKind) (s' s1 s'' : St) (hz : wordAt s'.bytes 0x14E ≠ 0)
    (h1 : resolveLabels (gameboyOn base) k s' = (.ok (), s1)) (hs : s1.bytes = s'.bytes)
    (h2 : link (gameboyOn base) k s' = (.ok (), s'')) :
    BootCheck s''.bytes ∧ ¬ GlobalCheck s''.bytes := by
  refine ⟨C44_boot_check base k s' s'' h2, fun hg => hz ?_⟩
  have hb := (C45_exact base k s' s1 s'' h1 h2).1 hg
  rw [hs] at hb
  unfold wordAt
  rw [hb.1, hb.2]
  rfl

/-! ## GBA -/

/-- The fix succeeds exactly for images that contain the whole header, and changes nothing
otherwise. -/
theorem C47_gba_succeeds (s : St) :
    (gbaFix s).1 = if 0xBE ≤ s.bytes.length then .ok () else .error .indexError := by
  split
  · rename_i h
    rw [gbaFix_ok h]
  · rw [gbaFix_short (by omega)]

theorem C47_gba_check (s s' : St) (h : gbaFix s = (.ok (), s')) :
    GbaCheck s'.bytes ∧ SameOutside 0xBD 0xBD s.bytes s'.bytes := by
  by_cases hl : 0xBE ≤ s.bytes.length
  · rw [gbaFix_ok hl] at h
    cases h
    refine ⟨gbaFixed_check _ hl, by simp [gbaFixed], fun i hi => ?_⟩
    simp only [gbaFixed]
    rw [List.getElem?_set_ne (by omega)]
  · rw [gbaFix_short (by omega)] at h
    cases h

theorem C47_gba_idempotent (s s' : St) (h : gbaFix s = (.ok (), s')) : gbaFix s' = (.ok (), s') := by
  by_cases hl : 0xBE ≤ s.bytes.length
  · rw [gbaFix_ok hl] at h
    cases h
    rw [gbaFix_ok (by simp [gbaFixed]; omega)]
    simp only [gbaFixed_idem]
  · rw [gbaFix_short (by omega)] at h
    cases h

/-! ## Genesis -/

/-- The fix needs the header and, past it, an even number of bytes: an odd length ends in an
`IndexError` and no output. -/
theorem C47_genesis_succeeds (s : St) :
    (genesisFix s).1 = if 0x190 ≤ s.bytes.length ∧ (s.bytes.length ≤ 0x200 ∨ s.bytes.length % 2 = 0) then .ok ()
      else .error .indexError := by
  split
  · rename_i h
    rw [genesisFix_ok h.1 h.2]
  · rename_i h
    by_cases hl : s.bytes.length < 0x190
    · exact genesisFix_short hl
    · rw [genesisFix_odd (by omega) (by omega)]

theorem C47_genesis_check (s s' : St) (h : genesisFix s = (.ok (), s')) :
    GenesisCheck s'.bytes ∧ SameOutside 0x18E 0x18F s.bytes s'.bytes := by
  have hs := C47_genesis_succeeds s
  rw [h] at hs
  split at hs
  · rename_i hc
    rw [genesisFix_ok hc.1 hc.2] at h
    cases h
    exact ⟨genesisFixed_check _ hc.1, genesisFixed_outside _⟩
  · cases hs

theorem C47_genesis_idempotent (s s' : St) (h : genesisFix s = (.ok (), s')) : genesisFix s' = (.ok (), s') := by
  have hs := C47_genesis_succeeds s
  rw [h] at hs
  split at hs
  · rename_i hc
    rw [genesisFix_ok hc.1 hc.2] at h
    cases h
    have hl := (genesisFixed_outside s.bytes).1
    rw [genesisFix_ok (by rw [hl]; exact hc.1) (by rw [hl]; exact hc.2)]
    simp only [genesisFixed_idem]
  · cases hs

/-! ## PlayStation -/

theorem window_prefix (a b : Bytes) (i n : Nat) (h : i + n ≤ a.length) : window (a ++ b) i n = window a i n := by
  unfold window
  rw [List.drop_append_of_le_length (by omega), List.take_append_of_le_length (by simp; omega)]

theorem window_skip (a b : Bytes) (i n : Nat) (h : a.length ≤ i) : window (a ++ b) i n = window b (i - a.length) n := by
  unfold window
  rw [List.drop_append, List.drop_of_length_le h, List.nil_append]

/-- The four bytes written for a size. -/
theorem packLe32u_size (n : Nat) : ∃ b, packLe32u [some (n : Int)] = .ok b ∧ b.length = 4 ∧ ofLE b = n % 2 ^ 32 := by
  obtain ⟨out, h1, h2, h3⟩ := C01_pack_le32u [some (n : Int)]
  refine ⟨out, h1, h2, ?_⟩
  simp only [List.length_singleton, List.map_cons, List.map_nil, fieldValue] at h3
  have e : chunks (32 / 8) 1 out = [out] := by
    simp only [chunks]
    rw [List.take_of_length_le (by rw [h2]; simp)]
  rw [e] at h3
  simp only [List.map_cons, List.map_nil, decodeField, ofBytes, List.cons.injEq, and_true] at h3
  have h4 : (ofLE out : Int) = (n : Int) % 2 ^ 32 := by simpa using h3
  omega

/-- For every program the file is a well formed executable that contains it. -/
theorem C48_layout (code : Bytes) : ∃ file, psxFile code = .ok file ∧ PsxExe code file := by
  obtain ⟨size, h1, h2, h3⟩ := packLe32u_size (psxPad code).length
  obtain ⟨n, hn⟩ := psxPad_eq code
  have hl := psxHeader_length size h2
  have hp : psxHeader size = ascii "PS-X EXE" ++ zeros 8 ++ psxRegs size ++ (zeros 40 ++
      ascii "Sony Computer Entertainment Inc. for Europe area" ++ zeros 1924) := by
    simp only [psxHeader, List.append_assoc]
  have hregs : ∀ i k, i + k ≤ 20 → window (psxHeader size ++ psxPad code) (0x10 + i) k = window (psxRegs size) i k := by
    intro i k hk
    rw [window_prefix _ _ _ _ (by rw [hl]; omega), hp,
      window_prefix _ _ _ _ (by rw [List.length_append, List.length_append, zeros_length, psxRegs_length size h2, ascii_magic]; omega),
      window_skip _ _ _ _ (by rw [List.length_append, zeros_length, ascii_magic]; omega), List.length_append, zeros_length, ascii_magic,
      show 0x10 + i - (8 + 8) = i by omega]
  obtain ⟨a, b, c, d, rfl⟩ : ∃ a b c d, size = [a, b, c, d] := by
    rcases size with _ | ⟨a, _ | ⟨b, _ | ⟨c, _ | ⟨d, _ | ⟨e, l⟩⟩⟩⟩⟩ <;> simp at h2
    exact ⟨a, b, c, d, rfl⟩
  have hlen : (psxHeader [a, b, c, d] ++ psxPad code).length = 0x800 + (psxPad code).length := by
    rw [List.length_append, hl]
  refine ⟨_, psxFile_eq code _ h1 h2, ?_, ?_, ?_, ?_, ?_, ?_, ?_⟩
  · rw [hlen, psxPad_length]
  · rw [window_prefix _ _ _ _ (by rw [hl]; decide), psxHeader, List.append_assoc, List.append_assoc, List.append_assoc, List.append_assoc,
      window_prefix _ _ _ _ (by rw [ascii_magic]; decide)]
    decide
  · rw [hregs 0 4 (by decide), show window (psxRegs [a, b, c, d]) 0 4 = [0, 0, 1, 0x80] from rfl]
    decide
  · rw [hregs 8 4 (by decide), show window (psxRegs [a, b, c, d]) 8 4 = [0, 0, 1, 0x80] from rfl]
    decide
  · rw [hregs 12 4 (by decide), hlen]
    have : window (psxRegs [a, b, c, d]) 12 4 = [a, b, c, d] := rfl
    rw [this, h3, show ∀ x, 0x800 + x - 0x800 = x by intro x; omega]
  · rw [window_skip _ _ _ _ (by rw [hl]; decide), hl, hn, window_prefix _ _ _ _ (by omega)]
    simp [window]
  · intro i hi hlt
    rw [hlen] at hlt
    rw [List.getElem?_append_right (by rw [hl]; omega), hl, hn, List.getElem?_append_right (by omega), List.getElem?_replicate,
      if_pos]
    · rfl
    · rw [hn, List.length_append, List.length_replicate] at hlt
      omega

/-! ## The hypotheses are met -/

/-- A state holding an image of 0x160 bytes without references. -/
def exRom (last : Byte) : St := { bytes := List.replicate 0x14E 7 ++ [0, last] ++ List.replicate 0x10 9 }

example : link (gameboyOn mos6502) .dummy (exRom 0) = (.ok (), (link (gameboyOn mos6502) .dummy (exRom 0)).2) :=
  pair_ok (by decide +kernel)

example : resolveLabels (gameboyOn mos6502) .dummy (exRom 0) =
    (.ok (), (resolveLabels (gameboyOn mos6502) .dummy (exRom 0)).2) := pair_ok (by decide +kernel)

example : wordAt (link (gameboyOn mos6502) .dummy (exRom 0)).2.bytes 0x14E = 2531 := by decide +kernel

/-- A non-zero byte in the place of the checksum changes it. -/
example : wordAt (link (gameboyOn mos6502) .dummy (exRom 1)).2.bytes 0x14E = 2532 := by decide +kernel

example : (gbaFix (exRom 0)).1 = .ok () ∧ (gbaFix (exRom 0)).2.bytes.getD 0xBD 0 = 0x1C := by decide +kernel

example : (genesisFix { bytes := List.replicate 0x300 0x81 }).1 = .ok () := by decide +kernel

end Necro
