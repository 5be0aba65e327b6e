import Verif.Lemmas.Elf
import Verif.Props.Link
import Verif.Props.Invariants
import Verif.Model.Cpu.Mos6502
/-!
# The ELF linker: C43

The reader is in `Verif/Spec/Elf.lean`.
-/

namespace Necro
open Spec

variable {c : ElfCfg} {s : St} {file : Bytes} {e : Ehdr}

theorem elf_ehdr (p : ElfParts c s file) (he : readEhdr file = some e) : e = elfEhdr c s := by
  have := (elf_readEhdr p).1
  rw [he, Option.some.injEq] at this
  exact this

/-- C43: the file has the ELF magic and the requested class, byte order, type and machine, and
the header locates a table of `sections + 4` section headers right behind itself. -/
theorem C43_header (h : elfFile c s = .ok file) : ∃ e, readEhdr file = some e ∧
    e.is64 = c.is64 ∧ e.be = c.bigEndian ∧ (e.type : Int) = c.eType ∧ (e.machine : Int) = c.machine ∧ e.version = 1 ∧
    e.entry = 0 ∧ e.phoff = 0 ∧ e.phnum = 0 ∧ e.flags = 0 ∧
    e.ehsize = (if c.is64 then 64 else 52) ∧ e.shoff = e.ehsize ∧ e.shentsize = (if c.is64 then 64 else 40) ∧
    e.shnum = s.sections.length + 4 ∧ e.shstrndx = s.sections.length + 1 := by
  obtain ⟨p⟩ := elfFile_parts h
  obtain ⟨h1, h2, h3⟩ := elf_readEhdr p
  exact ⟨_, h1, rfl, rfl, Int.toNat_of_nonneg h2, Int.toNat_of_nonneg h3, rfl, rfl, rfl, rfl, rfl, rfl, rfl, rfl, rfl, rfl⟩

/-- C43: the first entry of the section header table is the null section. -/
theorem C43_null (h : elfFile c s = .ok file) (he : readEhdr file = some e) :
    shdr file e 0 = ⟨0, 0, 0, 0, 0, 0, 0, 0, 0, 0⟩ := by
  obtain ⟨p⟩ := elfFile_parts h
  rw [elf_ehdr p he]
  obtain ⟨parts, hf, -, hw, h0, -⟩ := elf_table p
  exact shdrInts_inj (elf_entry p hf hw _ _ h0 p.hNull)

theorem sectionFlags_spec (perms : Str) : ∃ n : Nat, sectionFlags perms = n ∧ n < 8 ∧
    (n.testBit 1 = true ↔ 'R' ∈ perms) ∧ (n.testBit 0 = true ↔ 'W' ∈ perms) ∧
    (n.testBit 2 = true ↔ 'X' ∈ perms ∨ 'E' ∈ perms) := by
  unfold sectionFlags
  by_cases h1 : 'R' ∈ perms <;> by_cases h2 : 'W' ∈ perms <;> by_cases h3 : 'X' ∈ perms <;> by_cases h4 : 'E' ∈ perms <;>
    simp only [h1, h2, h3, h4, if_true, if_false, or_self, or_true, true_or, or_false, false_or, iff_true, iff_false]
  all_goals first
    | exact ⟨0, by decide +kernel⟩
    | exact ⟨1, by decide +kernel⟩
    | exact ⟨2, by decide +kernel⟩
    | exact ⟨3, by decide +kernel⟩
    | exact ⟨4, by decide +kernel⟩
    | exact ⟨5, by decide +kernel⟩
    | exact ⟨6, by decide +kernel⟩
    | exact ⟨7, by decide +kernel⟩

theorem elf_section (p : ElfParts c s file) (i : Nat) (name : Str) (sec : Section) (hi : s.sections[i]? = some (name, sec)) :
    ∃ o : Nat, (elfNames s).sectionOffsets[i]? = some o ∧ shdrInts (shdr file (elfEhdr c s) (i + 1)) =
      [(o : Int), if sec.size = some 0 then 8 else 1, sectionFlags sec.permissions, sec.start,
        ((elfFileBase c s + sec.offset : Nat) : Int), sec.size.getD 0, 0, 0, c.alignment, 0] := by
  obtain ⟨parts, hf, -, hw, -, hs, -⟩ := elf_table p
  obtain ⟨o, b, h1, h2, h3⟩ := hs i name sec hi
  exact ⟨o, h1, elf_entry p hf hw _ _ h2 h3⟩

/-- C43: the header of the `i`th section carries its start address, size, alignment and
permissions (`SHF_ALLOC`, `SHF_WRITE`, `SHF_EXECINSTR` for `R`, `W`, `X` or `E`), is marked
`SHT_NOBITS` exactly when the section is empty, and its name is found in the string table. -/
theorem C43_section (h : elfFile c s = .ok file) (he : readEhdr file = some e) (i : Nat) (name : Str) (sec : Section)
    (hi : s.sections[i]? = some (name, sec)) :
    let sh := shdr file e (i + 1)
    (sh.addr : Int) = sec.start ∧ (sh.size : Int) = sec.size.getD 0 ∧ (sh.align : Int) = c.alignment ∧
    sh.type = (if sec.size = some 0 then 8 else 1) ∧ sh.flags < 8 ∧
    (sh.flags.testBit 1 = true ↔ 'R' ∈ sec.permissions) ∧ (sh.flags.testBit 0 = true ↔ 'W' ∈ sec.permissions) ∧
    (sh.flags.testBit 2 = true ↔ 'X' ∈ sec.permissions ∨ 'E' ∈ sec.permissions) ∧
    ('\x00' ∉ name → sectionName file e sh = utf8 name) := by
  obtain ⟨p⟩ := elfFile_parts h
  rw [elf_ehdr p he]
  obtain ⟨o, ho, hsh⟩ := elf_section p i name sec hi
  simp only
  generalize hg : shdr file (elfEhdr c s) (i + 1) = sh at hsh
  simp only [shdrInts, List.cons.injEq, and_true] at hsh
  obtain ⟨q0, q1, q2, q3, q4, q5, q6, q7, q8, q9⟩ := hsh
  obtain ⟨n, f0, f1, f2, f3, f4⟩ := sectionFlags_spec sec.permissions
  have en : sh.flags = n := by rw [f0] at q2; omega
  refine ⟨q3, q5, q8, ?_, by rw [en]; exact f1, by rw [en]; exact f2, by rw [en]; exact f3, by rw [en]; exact f4, ?_⟩
  · by_cases hz : sec.size = some 0
    · rw [if_pos hz] at q1 ⊢; omega
    · rw [if_neg hz] at q1 ⊢; omega
  · intro hn
    unfold sectionName
    have e1 : (elfEhdr c s).shstrndx = s.sections.length + 1 := rfl
    rw [e1, (elf_names_table p).2]
    obtain ⟨pre, post, h1, h2⟩ := (elf_shstrtab s).1 i name (by rw [List.getElem?_map, hi]; rfl)
    rw [ho, Option.some.injEq] at h1
    rw [h2]
    exact stringAt_mid pre (utf8 name) post (utf8_no_zero hn) _ (by omega)

/-- C43: the bytes a reader gets for a section are that section's bytes. -/
theorem C43_contents (h : elfFile c s = .ok file) (he : readEhdr file = some e) (i : Nat) (name : Str) (sec : Section)
    (hi : s.sections[i]? = some (name, sec)) (n : Nat) (hn : sec.size = some (n : Int))
    (hfit : sec.offset + n ≤ s.bytes.length) :
    contents file (shdr file e (i + 1)) = window s.bytes sec.offset n := by
  obtain ⟨p⟩ := elfFile_parts h
  rw [elf_ehdr p he]
  obtain ⟨o, ho, hsh⟩ := elf_section p i name sec hi
  generalize hg : shdr file (elfEhdr c s) (i + 1) = sh at hsh
  simp only [shdrInts, List.cons.injEq, and_true] at hsh
  obtain ⟨q0, q1, q2, q3, q4, q5, q6, q7, q8, q9⟩ := hsh
  rw [hn] at q1 q5
  simp only [Option.some.injEq, Option.getD_some, Int.natCast_inj] at q1 q5
  unfold contents
  rw [q5]
  by_cases hz : n = 0
  · subst hz
    rw [if_pos (by right; simp at q1; omega)]
    simp [window]
  · rw [if_neg (show ¬ ((n : Int) = 0) by omega)] at q1
    rw [if_neg (by omega)]
    obtain ⟨pre, hp, hpl⟩ := elf_tail p
    have e2 : file = pre ++ (s.bytes ++ ((elfNames s).shstrtab ++ ((elfNames s).strtab ++ p.symtab))) := hp
    have w := window_drop pre s.bytes sec.offset n hfit ((elfNames s).shstrtab ++ ((elfNames s).strtab ++ p.symtab))
    rw [← e2, hpl] at w
    rw [show sh.offset = elfFileBase c s + sec.offset by omega]
    exact w

/-- C43: behind the sections come `.shstrtab`, `.strtab` and `.symtab`; the first is the one
`e_shstrndx` points at and the last is linked to the second. -/
theorem C43_tables (h : elfFile c s = .ok file) (he : readEhdr file = some e) :
    let n := s.sections.length
    (shdr file e (n + 1)).type = 3 ∧ (shdr file e (n + 2)).type = 3 ∧ (shdr file e (n + 3)).type = 2 ∧
    sectionName file e (shdr file e (n + 1)) = utf8 ".shstrtab".toList ∧
    sectionName file e (shdr file e (n + 2)) = utf8 ".strtab".toList ∧
    sectionName file e (shdr file e (n + 3)) = utf8 ".symtab".toList ∧
    (shdr file e (n + 3)).link = n + 2 ∧ (shdr file e (n + 3)).entsize = (if c.is64 then 24 else 16) ∧
    (shdr file e (n + 3)).offset + (shdr file e (n + 3)).size = file.length := by
  obtain ⟨p⟩ := elfFile_parts h
  rw [elf_ehdr p he]
  obtain ⟨a1, a2⟩ := elf_names_table p
  obtain ⟨b1, b2⟩ := elf_strtab p
  obtain ⟨c1, c2, c3, c4⟩ := elf_symtab p
  obtain ⟨-, ⟨x1, y1, d1, d2⟩, ⟨x2, y2, e1, e2⟩, ⟨x3, y3, f1, f2⟩⟩ := elf_shstrtab s
  have ei : (elfEhdr c s).shstrndx = s.sections.length + 1 := rfl
  refine ⟨by rw [a1], by rw [b1], by rw [c1], ?_, ?_, ?_, by rw [c1], by rw [c1], ?_⟩
  · unfold sectionName
    rw [ei, a2, a1, d2]
    exact stringAt_mid x1 _ y1 (by decide +kernel) _ d1
  · unfold sectionName
    rw [ei, a2, b1, e2]
    exact stringAt_mid x2 _ y2 (by decide +kernel) _ e1
  · unfold sectionName
    rw [ei, a2, c1, f2]
    exact stringAt_mid x3 _ y3 (by decide +kernel) _ f1
  · rw [c1]
    simp only
    have := congrArg List.length c3
    rw [List.length_append, List.length_append, List.length_nil, c4] at this
    omega

/-- C43: the symbol table holds exactly the defined labels that were exported, in order of
definition, with their names, their values, global binding and the section they belong to
(section header `shndx`, which is one past the index of the section). -/
theorem C43_symbols (h : elfFile c s = .ok file) (he : readEhdr file = some e)
    (hn : ∀ l ∈ s.labels, '\x00' ∉ l.1) :
    let ys := symbols file e (shdr file e (s.sections.length + 3))
    let ls := s.labels.filter fun l => decide (l.1 ∈ s.exports)
    ys.length = ls.length ∧
    ∀ (k : Nat) (name : Str) (l : LabelInfo), ls[k]? = some (name, l) → ∃ y, ys[k]? = some (utf8 name, y) ∧
      (y.value : Int) = l.base ∧ y.size = 0 ∧ y.info = 0x10 ∧ y.other = 0 ∧
      0 < y.shndx ∧ (s.sections[y.shndx - 1]?).map Prod.fst = l.sect := by
  obtain ⟨p⟩ := elfFile_parts h
  rw [elf_ehdr p he]
  obtain ⟨c1, pre, c3, c4⟩ := elf_symtab p
  obtain ⟨parts, e1, e2, e3⟩ := concatM_ok p.hSym
  have hlen : parts.length = (exportedLabels s).length := by
    rw [e2, List.length_zip, elfNames_symOffsets, List.length_map, Nat.min_self]
  have hw : ∀ b ∈ parts, b.length = (if c.is64 then 24 else 16) := by
    intro b hb
    obtain ⟨i, hlt, hget⟩ := List.mem_iff_getElem.1 hb
    have hlt' : i < ((elfNames s).symbolOffsets.zip ((exportedLabels s).map Prod.snd)).length := by rw [← e2]; exact hlt
    obtain ⟨b', h1, h2⟩ := e3 i _ (List.getElem?_eq_getElem hlt')
    rw [List.getElem?_eq_getElem hlt, Option.some.injEq] at h1
    rw [← hget, h1]
    exact (readSym_build h2 [] [] 0 rfl).1
  have hsz : p.symtab.length / (if c.is64 then 24 else 16) = (exportedLabels s).length := by
    rw [e1, flatten_length hw, hlen]
    cases c.is64 <;> simp
  have hcount : (shdr file (elfEhdr c s) (s.sections.length + 3)).size / (shdr file (elfEhdr c s) (s.sections.length + 3)).entsize =
      (exportedLabels s).length := by rw [c1]; exact hsz
  constructor
  · unfold symbols
    rw [List.length_map, List.length_range, hcount]
    rfl
  · intro k name l hk
    have hk' : (exportedLabels s)[k]? = some (name, l) := hk
    have hlt : k < (exportedLabels s).length := (List.getElem?_eq_some_iff.1 hk').1
    obtain ⟨np, npost, hp1, hp2⟩ := addNames_at ((exportedLabels s).map Prod.fst) [0] k name (by rw [List.getElem?_map, hk']; rfl)
    have ho : (elfNames s).symbolOffsets[k]? = some np.length := hp1
    have hst : (elfNames s).strtab = np ++ (utf8 name ++ 0 :: npost) := hp2
    obtain ⟨b, hb1, hb2⟩ := e3 k (np.length, l) (by
      rw [List.getElem?_zip_eq_some]
      exact ⟨ho, by rw [List.getElem?_map, hk']; rfl⟩)
    obtain ⟨a, z, g1, g2⟩ := flatten_at hw k b hb1
    obtain ⟨-, i, r1, r2⟩ := readSym_build hb2 (pre ++ a) z _ rfl
    have ef : file = pre ++ a ++ (b ++ z) := by
      refine c3.trans ?_
      rw [e1, g1]
      simp only [List.append_assoc, List.append_nil]
    rw [← ef] at r2
    generalize hy : readSym c.is64 c.bigEndian file (pre ++ a).length = y at r2
    simp only [symInts, List.cons.injEq, and_true] at r2
    obtain ⟨s0, s1, s2, s3, s4, s5⟩ := r2
    refine ⟨y, ?_, s1, by omega, by omega, by omega, by omega, ?_⟩
    · unfold symbols
      rw [List.getElem?_map, hcount, List.getElem?_range hlt, Option.map_some]
      simp only
      have ey : readSym (elfEhdr c s).is64 (elfEhdr c s).be file
          ((shdr file (elfEhdr c s) (s.sections.length + 3)).offset +
            (shdr file (elfEhdr c s) (s.sections.length + 3)).entsize * k) = y := by
        rw [c1, ← hy]
        show readSym c.is64 c.bigEndian file _ = _
        congr 1
        rw [List.length_append, c4, g2]
      have el : (shdr file (elfEhdr c s) (s.sections.length + 3)).link = s.sections.length + 2 := by rw [c1]
      rw [ey, el, (elf_strtab p).2, hst]
      have hmem : (name, l) ∈ s.labels := (List.mem_filter.1 (List.mem_of_getElem? hk')).1
      rw [stringAt_mid np (utf8 name) npost (utf8_no_zero (hn _ hmem)) _ (by omega)]
    · unfold sectionIndex at r1
      cases hs : l.sect with
      | none => rw [hs] at r1; simp at r1
      | some n =>
        rw [hs] at r1
        simp only at r1
        cases hf : s.sections.findIdx? (fun e => e.1 == n) with
        | none => rw [hf] at r1; simp at r1
        | some j =>
          rw [hf] at r1
          simp only [Except.ok.injEq] at r1
          subst r1
          rw [show y.shndx - 1 = j by omega]
          obtain ⟨hj, hp, -⟩ := List.findIdx?_eq_some_iff_getElem.1 hf
          rw [List.getElem?_eq_getElem hj, Option.map_some, Option.some.injEq]
          simpa using hp

/-- C43: the symbols cannot be written if an exported label lies outside every section. -/
theorem C43_outside (l : Str × LabelInfo) (hl : l ∈ s.labels) (hx : l.1 ∈ s.exports)
    (ho : ∀ n, l.2.sect = some n → n ∉ s.sections.map Prod.fst) : ∀ f, elfFile c s ≠ .ok f := by
  intro f h
  obtain ⟨p⟩ := elfFile_parts h
  obtain ⟨parts, -, e2, e3⟩ := concatM_ok p.hSym
  have hm : l ∈ exportedLabels s := List.mem_filter.2 ⟨hl, by simpa using hx⟩
  obtain ⟨k, hk, hget⟩ := List.mem_iff_getElem.1 hm
  have hlo : k < (elfNames s).symbolOffsets.length := by rw [elfNames_symOffsets]; exact hk
  obtain ⟨b, -, hb⟩ := e3 k ((elfNames s).symbolOffsets[k], l.2) (by
    rw [List.getElem?_zip_eq_some]
    exact ⟨List.getElem?_eq_getElem hlo, by rw [List.getElem?_map, List.getElem?_eq_getElem hk, hget]; rfl⟩)
  unfold buildSymbol sectionIndex at hb
  cases hs : l.2.sect with
  | none => rw [hs] at hb; simp at hb
  | some n =>
    rw [hs] at hb
    have : s.sections.findIdx? (fun e => e.1 == n) = none := by
      rw [List.findIdx?_eq_none_iff]
      intro x hx
      have := ho n hs
      simp only [List.mem_map, not_exists, not_and] at this
      simpa using this x hx
    simp only [this] at hb
    simp at hb

/-- The bound of an address field: 32 or 64 bits. -/
def addrLimit (c : ElfCfg) : Int := if c.is64 then 2 ^ 64 else 2 ^ 32

theorem shdr_fits (c : ElfCfg) {v0 v1 v2 v3 v4 v5 v6 v7 v8 v9 : Int}
    (h0 : 0 ≤ v0 ∧ v0 < 2 ^ 32) (h1 : 0 ≤ v1 ∧ v1 < 2 ^ 32) (h2 : 0 ≤ v2 ∧ v2 < 2 ^ 32) (h3 : 0 ≤ v3 ∧ v3 < addrLimit c)
    (h4 : 0 ≤ v4 ∧ v4 < 2 ^ 32) (h5 : 0 ≤ v5 ∧ v5 < 2 ^ 32) (h6 : 0 ≤ v6 ∧ v6 < 2 ^ 32) (h7 : 0 ≤ v7 ∧ v7 < 2 ^ 32)
    (h8 : 0 ≤ v8 ∧ v8 < addrLimit c) (h9 : 0 ≤ v9 ∧ v9 < 2 ^ 32) :
    ∃ out, structPack c.bigEndian c.sectionFormat [v0, v1, v2, v3, v4, v5, v6, v7, v8, v9] = .ok out := by
  obtain ⟨is64, be, t, m, al⟩ := c
  apply structPack_fits_ok
  · cases is64 <;> rfl
  · unfold addrLimit at h3 h8
    cases is64
    · intro p hp
      simp only [ElfCfg.sectionFormat, Bool.false_eq_true, if_false, List.replicate, List.zip_cons_cons, List.zip_nil_right, List.mem_cons, List.not_mem_nil, or_false] at hp h3 h8
      rcases hp with rfl | rfl | rfl | rfl | rfl | rfl | rfl | rfl | rfl | rfl <;>
        (rw [fits_unsigned rfl]; simp only [Fmt.size]; omega)
    · intro p hp
      simp only [ElfCfg.sectionFormat, if_true, List.zip_cons_cons, List.zip_nil_right, List.mem_cons, List.not_mem_nil, or_false] at hp h3 h8
      rcases hp with rfl | rfl | rfl | rfl | rfl | rfl | rfl | rfl | rfl | rfl <;>
        (rw [fits_unsigned rfl]; simp only [Fmt.size]; omega)

/-- The bytes a name takes in a string table. -/
def namesSize (ns : List Str) : Nat := (ns.map fun n => (utf8 n).length + 1).sum

theorem elfNames_sizes (s : St) :
    (elfNames s).shstrtab.length = 1 + namesSize (s.sections.map Prod.fst) + 26 ∧
    (elfNames s).shstrtabName ≤ (elfNames s).shstrtab.length ∧ (elfNames s).strtabName ≤ (elfNames s).shstrtab.length ∧
    (elfNames s).symtabName ≤ (elfNames s).shstrtab.length ∧
    (∀ o ∈ (elfNames s).sectionOffsets, o ≤ (elfNames s).shstrtab.length) ∧
    (elfNames s).strtab.length = 1 + namesSize ((exportedLabels s).map Prod.fst) ∧
    (∀ o ∈ (elfNames s).symbolOffsets, o ≤ (elfNames s).strtab.length) := by
  have step : ∀ (n : Str) (t : Bytes), (addNames [n] t).2.length = t.length + ((utf8 n).length + 1) := by
    intro n t; rw [addNames_size]; simp
  have z1 : (utf8 ".shstrtab".toList).length = 9 := by decide +kernel
  have z2 : (utf8 ".strtab".toList).length = 7 := by decide +kernel
  have z3 : (utf8 ".symtab".toList).length = 7 := by decide +kernel
  have e : (elfNames s).shstrtab.length = 1 + namesSize (s.sections.map Prod.fst) + 26 := by
    unfold elfNames
    simp only [step, z1, z2, z3]
    rw [addNames_size]
    rfl
  refine ⟨e, ?_, ?_, ?_, ?_, ?_, ?_⟩
  · rw [e]; unfold elfNames; simp only; rw [addNames_size]; simp [namesSize]
  · rw [e]; unfold elfNames; simp only [step, z1]; rw [addNames_size]; simp [namesSize]
  · rw [e]; unfold elfNames; simp only [step, z1, z2]; rw [addNames_size]; simp [namesSize]
  · intro o ho
    obtain ⟨i, hlt, rfl⟩ := List.mem_iff_getElem.1 ho
    have hi : i < (s.sections.map Prod.fst).length := by rw [elfNames_offsets] at hlt; simpa using hlt
    obtain ⟨pre, post, h1, h2⟩ := (elf_shstrtab s).1 i _ (List.getElem?_eq_getElem hi)
    rw [List.getElem?_eq_getElem hlt, Option.some.injEq] at h1
    rw [h1, h2]
    simp
  · show (addNames ((exportedLabels s).map Prod.fst) [0]).2.length = _
    rw [addNames_size]; rfl
  · intro o ho
    obtain ⟨i, hlt, rfl⟩ := List.mem_iff_getElem.1 ho
    have hi : i < ((exportedLabels s).map Prod.fst).length := by rw [elfNames_symOffsets] at hlt; simpa using hlt
    obtain ⟨pre, post, h1, h2⟩ := addNames_at _ [0] i _ (List.getElem?_eq_getElem hi)
    have h1' : (elfNames s).symbolOffsets[i]? = some pre.length := h1
    have h2' : (elfNames s).strtab = _ := h2
    rw [List.getElem?_eq_getElem hlt, Option.some.injEq] at h1'
    rw [h1', h2']
    simp

/-- C43: linking succeeds whenever the values fit their fields: the class bounds the addresses
and the label values, there are fewer than 65532 sections, every section lies inside the code,
every exported label belongs to a section, and the file stays under 4 GiB. -/
theorem C43_succeeds (c : ElfCfg) (s : St) (ht : 0 ≤ c.eType ∧ c.eType < 2 ^ 16) (hm : 0 ≤ c.machine ∧ c.machine < 2 ^ 16)
    (ha : 0 ≤ c.alignment ∧ c.alignment < addrLimit c) (hn : s.sections.length + 4 < 2 ^ 16)
    (hsec : ∀ x ∈ s.sections, (0 ≤ x.2.start ∧ x.2.start < addrLimit c) ∧
      ∃ n : Nat, x.2.size = some (n : Int) ∧ x.2.offset + n ≤ s.bytes.length)
    (hlab : ∀ l ∈ s.labels, l.1 ∈ s.exports → (0 ≤ l.2.base ∧ l.2.base < addrLimit c) ∧
      ∃ n, l.2.sect = some n ∧ n ∈ s.sections.map Prod.fst)
    (hsize : 64 * (s.sections.length + 5) + s.bytes.length + namesSize (s.sections.map Prod.fst) +
      namesSize ((s.labels.filter fun l => decide (l.1 ∈ s.exports)).map Prod.fst) + 28 +
      24 * (s.labels.filter fun l => decide (l.1 ∈ s.exports)).length < 2 ^ 32) :
    ∃ file, elfFile c s = .ok file := by
  obtain ⟨z1, z2, z3, z4, z5, z6, z7⟩ := elfNames_sizes s
  have hsize' : 64 * (s.sections.length + 5) + s.bytes.length + namesSize (s.sections.map Prod.fst) +
      namesSize ((exportedLabels s).map Prod.fst) + 28 + 24 * (exportedLabels s).length < 2 ^ 32 := hsize
  have hb : elfFileBase c s ≤ 64 * (s.sections.length + 5) := by
    unfold elfFileBase ElfCfg.headerSize ElfCfg.sectionHeaderSize
    cases c.is64
    · simp only [Bool.false_eq_true, if_false]; omega
    · simp only [if_true]; omega
  have hal0 : (0 : Int) < addrLimit c := by unfold addrLimit; cases c.is64 <;> decide
  have fit : ∀ n : Nat, n < 2 ^ 32 → 0 ≤ (n : Int) ∧ (n : Int) < 2 ^ 32 := fun n h => ⟨by omega, by omega⟩
  have lit : ∀ n : Int, 0 ≤ n → n < 2 ^ 32 → 0 ≤ n ∧ n < 2 ^ 32 := fun n a b => ⟨a, b⟩
  have zero : 0 ≤ (0 : Int) ∧ (0 : Int) < addrLimit c := ⟨by omega, hal0⟩
  obtain ⟨r0, e0⟩ : ∃ r, structPack c.bigEndian [.H, .H, .I] [c.eType, c.machine, 1] = .ok r := by
    apply structPack_fits_ok rfl
    intro p hp
    simp only [List.zip_cons_cons, List.zip_nil_right, List.mem_cons, List.not_mem_nil, or_false] at hp
    rcases hp with rfl | rfl | rfl <;> (rw [fits_unsigned rfl]; simp only [Fmt.size]; omega)
  obtain ⟨r1, e1⟩ : ∃ r, nullSection c = .ok r :=
    shdr_fits c (by decide) (by decide) (by decide) zero (by decide) (by decide) (by decide) (by decide) zero (by decide)
  obtain ⟨r2, e2⟩ : ∃ r, sectionHeaders c (elfFileBase c s) ((elfNames s).sectionOffsets.zip (s.sections.map Prod.snd)) = .ok r := by
    apply concatM_exists
    rintro ⟨o, sec⟩ hx
    obtain ⟨ho, hs⟩ := List.of_mem_zip hx
    obtain ⟨x, hx1, rfl⟩ := List.mem_map.1 hs
    obtain ⟨hst, n, hn1, hn2⟩ := hsec x hx1
    obtain ⟨f, f0, f1, -⟩ := sectionFlags_spec x.2.permissions
    have := z5 o ho
    show ∃ b, buildSection c (elfFileBase c s) o x.2 = .ok b
    refine shdr_fits c (fit _ (by omega)) ?_ ?_ hst (fit _ (by omega)) ?_ (by decide) (by decide) ha (by decide)
    · split <;> decide
    · rw [f0]; exact fit _ (by omega)
    · rw [hn1]; exact fit _ (by omega)
  obtain ⟨r3, e3⟩ : ∃ r, symbolTable c s.sections ((elfNames s).symbolOffsets.zip ((exportedLabels s).map Prod.snd)) = .ok r := by
    apply concatM_exists
    rintro ⟨o, l⟩ hx
    obtain ⟨ho, hs⟩ := List.of_mem_zip hx
    obtain ⟨x, hx1, rfl⟩ := List.mem_map.1 hs
    obtain ⟨hx2, hx3⟩ := List.mem_filter.1 hx1
    obtain ⟨hb1, n, hn1, hn2⟩ := hlab x hx2 (by simpa using hx3)
    have := z7 o ho
    obtain ⟨i, hi⟩ : ∃ i, s.sections.findIdx? (fun e => e.1 == n) = some i := by
      cases hf : s.sections.findIdx? (fun e => e.1 == n) with
      | some i => exact ⟨i, rfl⟩
      | none =>
        rw [List.findIdx?_eq_none_iff] at hf
        obtain ⟨y, hy, rfl⟩ := List.mem_map.1 hn2
        have := hf y hy
        simp at this
    have hlt : i < s.sections.length := (List.findIdx?_eq_some_iff_getElem.1 hi).1
    have hidx : sectionIndex s.sections x.2 = .ok i := by
      unfold sectionIndex
      rw [hn1]
      simp only [hi]
    simp only [buildSymbol, hidx]
    unfold addrLimit at hb1
    split
    · rename_i h64
      rw [if_pos h64] at hb1
      apply structPack_fits_ok rfl
      intro p hp
      simp only [List.zip_cons_cons, List.zip_nil_right, List.mem_cons, List.not_mem_nil, or_false] at hp
      rcases hp with rfl | rfl | rfl | rfl | rfl | rfl <;> (rw [fits_unsigned rfl]; simp only [Fmt.size]; omega)
    · rename_i h64
      rw [if_neg h64] at hb1
      apply structPack_fits_ok rfl
      intro p hp
      simp only [List.zip_cons_cons, List.zip_nil_right, List.mem_cons, List.not_mem_nil, or_false] at hp
      rcases hp with rfl | rfl | rfl | rfl | rfl | rfl <;> (rw [fits_unsigned rfl]; simp only [Fmt.size]; omega)
  have hl3 : r3.length ≤ 24 * (exportedLabels s).length := by
    obtain ⟨parts, q1, q2, q3⟩ := concatM_ok e3
    have hw : ∀ b ∈ parts, b.length = (if c.is64 then 24 else 16) := by
      intro b hb
      obtain ⟨i, hlt, hget⟩ := List.mem_iff_getElem.1 hb
      have hlt' : i < ((elfNames s).symbolOffsets.zip ((exportedLabels s).map Prod.snd)).length := by rw [← q2]; exact hlt
      obtain ⟨b', h1, h2⟩ := q3 i _ (List.getElem?_eq_getElem hlt')
      rw [List.getElem?_eq_getElem hlt, Option.some.injEq] at h1
      rw [← hget, h1]
      exact (readSym_build h2 [] [] 0 rfl).1
    rw [q1, flatten_length hw, q2, List.length_zip, elfNames_symOffsets, List.length_map, Nat.min_self]
    cases c.is64
    · simp only [Bool.false_eq_true, if_false]; omega
    · simp only [if_true]; omega
  obtain ⟨r4, e4⟩ : ∃ r, buildStringSection c (elfNames s).shstrtabName (elfFileBase c s + s.bytes.length) (elfNames s).shstrtab = .ok r :=
    shdr_fits c (fit _ (by omega)) (by decide) (by decide) zero (fit _ (by omega)) (fit _ (by omega)) (by decide) (by decide) zero (by decide)
  obtain ⟨r5, e5⟩ : ∃ r, buildStringSection c (elfNames s).strtabName
      (elfFileBase c s + s.bytes.length + (elfNames s).shstrtab.length) (elfNames s).strtab = .ok r :=
    shdr_fits c (fit _ (by omega)) (by decide) (by decide) zero (fit _ (by omega)) (fit _ (by omega)) (by decide) (by decide) zero (by decide)
  obtain ⟨r6, e6⟩ : ∃ r, buildSymtabSection c (elfNames s).symtabName
      (elfFileBase c s + s.bytes.length + (elfNames s).shstrtab.length + (elfNames s).strtab.length) r3
      (s.sections.length + 2) = .ok r :=
    shdr_fits c (fit _ (by omega)) (by decide) (by decide) zero (fit _ (by omega)) (fit _ (by omega)) (fit _ (by omega)) (by decide) zero
      (by split <;> decide)
  obtain ⟨r7, e7⟩ : ∃ r, elfHeaderRest c s.sections.length = .ok r := by
    unfold elfHeaderRest ElfCfg.headerSize ElfCfg.sectionHeaderSize
    cases c.is64
    · apply structPack_fits_ok rfl
      intro p hp
      simp only [Bool.false_eq_true, if_false, List.zip_cons_cons, List.zip_nil_right, List.mem_cons, List.not_mem_nil, or_false] at hp
      rcases hp with rfl | rfl | rfl | rfl | rfl | rfl | rfl | rfl | rfl | rfl <;> (rw [fits_unsigned rfl]; simp only [Fmt.size]; omega)
    · apply structPack_fits_ok rfl
      intro p hp
      simp only [if_true, List.zip_cons_cons, List.zip_nil_right, List.mem_cons, List.not_mem_nil, or_false] at hp
      rcases hp with rfl | rfl | rfl | rfl | rfl | rfl | rfl | rfl | rfl | rfl <;> (rw [fits_unsigned rfl]; simp only [Fmt.size]; omega)
  unfold elfFile elfInit elfLink
  rw [e0, e1]
  simp only [bind, Except.bind, e2, e3, e4, e5, e6, e7, pure, Except.pure]
  exact ⟨_, rfl⟩

theorem tiles_contents (bs : Bytes) : ∀ (secs : List Section) (a : Nat), Tiles secs a bs.length →
    secs.flatMap (fun sec => window bs sec.offset (sec.size.getD 0).toNat) = bs.drop a ∧
    ∀ sec ∈ secs, ∃ n : Nat, sec.size = some (n : Int) ∧ sec.offset + n ≤ bs.length
  | [], a, h => by
    simp only [Tiles] at h
    rw [List.drop_eq_nil_of_le (by omega)]
    simp
  | sec :: rest, a, h => by
    obtain ⟨h1, n, h2, h3, h4⟩ := h
    obtain ⟨k, rfl⟩ := Int.eq_ofNat_of_zero_le h2
    have hle := tiles_le rest _ _ h4
    obtain ⟨i1, i2⟩ := tiles_contents bs rest (a + k) (by rw [Int.natCast_add]; exact h4)
    have hoff : sec.offset = a := by omega
    constructor
    · rw [List.flatMap_cons, i1, h3]
      simp only [Option.getD_some, Int.ofNat_eq_natCast, Int.toNat_natCast, window, hoff]
      rw [← List.drop_drop, List.take_append_drop]
    · intro x hx
      rcases List.mem_cons.1 hx with rfl | hx
      · exact ⟨k, h3, by omega⟩
      · exact i2 x hx

/-- C43, for whole programs: assemble a program that declares sections and link it with the
`ELF` linker.  Then every section's header points at exactly its linked bytes, and the sections of
the file, read one after the other, are the linked bytes from the start of the first section to
the end: nothing assembled after the first `.section` is lost or duplicated. -/
theorem C43_program (d : Dialect) (env : Env) (hdef : ∀ p ∈ d.defines, GoodTok p.2)
    (hc : CustomKeeps d env SectionsRel) (hn : CustomKeeps d env NamesRel) (hp : d.postLink = pure ()) (depth : Nat)
    (code : Str) (s0 s1 s2 : St) (hr : Reach d env s0) (ha : assemble d env depth code s0 = (.ok (), s1))
    (hh : ∀ e ∈ s1.relocs, e.2.hook = none) (hl : link d .elf s1 = (.ok (), s2)) (c : ElfCfg) (file : Bytes) (e : Ehdr)
    (h : elfFile c s2 = .ok file) (he : readEhdr file = some e) :
    (∀ (i : Nat) (name : Str) (sec : Section), s1.sections[i]? = some (name, sec) →
      contents file (shdr file e (i + 1)) = window s2.bytes sec.offset (sec.size.getD 0).toNat ∧
      ((shdr file e (i + 1)).size : Int) = sec.size.getD 0) ∧
    (s1.sections ≠ [] → ∃ a, (s1.sections[0]?.map fun x => x.2.offset) = some a ∧
      (List.range s1.sections.length).flatMap (fun i => contents file (shdr file e (i + 1))) = s2.bytes.drop a) := by
  obtain ⟨w1, -, -, w4⟩ := C36_windows d .elf hp s1 hh
  rw [hl] at w1 w4
  simp only at w1 w4
  have hsec : s2.sections = s1.sections := by rw [← w4]
  rcases C27_partition d env hdef hc hn depth code s0 s1 hr ha with hnil | ⟨a, ha0, ht⟩
  · exact ⟨by rw [hnil]; simp, fun hne => absurd hnil hne⟩
  · obtain ⟨a', rfl⟩ := Int.eq_ofNat_of_zero_le ha0
    rw [← w1] at ht
    obtain ⟨t1, t2⟩ := tiles_contents s2.bytes _ a' ht
    have key : ∀ (i : Nat) (name : Str) (sec : Section), s1.sections[i]? = some (name, sec) →
        contents file (shdr file e (i + 1)) = window s2.bytes sec.offset (sec.size.getD 0).toNat ∧
        ((shdr file e (i + 1)).size : Int) = sec.size.getD 0 := by
      intro i name sec hi
      obtain ⟨n, hn1, hn2⟩ := t2 sec (List.mem_map.2 ⟨_, List.mem_of_getElem? hi, rfl⟩)
      rw [← hsec] at hi
      refine ⟨?_, (C43_section h he i name sec hi).2.1⟩
      rw [C43_contents h he i name sec hi n hn1 hn2, hn1]
      rfl
    refine ⟨key, fun hne => ?_⟩
    obtain ⟨x, rest, hcons⟩ := List.exists_cons_of_ne_nil hne
    have hx0 : x.2.offset = a' := by
      rw [hcons, List.map_cons] at ht
      have := ht.1
      omega
    refine ⟨a', by rw [hcons]; simp [hx0], ?_⟩
    rw [← t1]
    have : ∀ (l : List (Str × Section)) (g : Nat → Bytes), (∀ i name sec, l[i]? = some (name, sec) →
        g i = window s2.bytes sec.offset (sec.size.getD 0).toNat) →
        (List.range l.length).flatMap g =
          (l.map Prod.snd).flatMap (fun sec => window s2.bytes sec.offset (sec.size.getD 0).toNat) := by
      intro l
      induction l with
      | nil => intro g _; rfl
      | cons y l ih =>
        intro g hg
        rw [List.length_cons, List.range_succ_eq_map, List.flatMap_cons, List.map_cons, List.flatMap_cons,
          hg 0 y.1 y.2 rfl, List.flatMap_map]
        congr 1
        exact ih (fun i => g (i + 1)) fun i name sec hi => hg (i + 1) name sec (by rw [List.getElem?_cons_succ]; exact hi)
    exact this s1.sections _ fun i name sec hi => (key i name sec hi).1

/-- A linker object can be used once: the header of a second file follows the first header, so
its section table is not where the header says. -/
theorem C43_single_use (header f1 header' f2 header'' : Bytes) (s' : St)
    (h1 : elfLink c header s = .ok (f1, header')) (h2 : elfLink c header' s' = .ok (f2, header'')) :
    header'.length = header.length + (c.headerSize - 24) ∧ header' <+: f2 ∧
    header''.length = header.length + 2 * (c.headerSize - 24) := by
  have key : ∀ {header f header' : Bytes} {s : St}, elfLink c header s = .ok (f, header') →
      header'.length = header.length + (c.headerSize - 24) ∧ ∃ z, header' = header ++ z ∧ header' <+: f := by
    intro header f header' s h
    unfold elfLink at h
    cases e1 : nullSection c with
    | error e => rw [e1] at h; simp [bind, Except.bind] at h
    | ok null =>
    cases e2 : sectionHeaders c (elfFileBase c s) ((elfNames s).sectionOffsets.zip (s.sections.map Prod.snd)) with
    | error e => rw [e1] at h; simp [bind, Except.bind, e2] at h
    | ok heads =>
    cases e3 : symbolTable c s.sections ((elfNames s).symbolOffsets.zip ((exportedLabels s).map Prod.snd)) with
    | error e => rw [e1] at h; simp [bind, Except.bind, e2, e3] at h
    | ok symtab =>
    cases e4 : buildStringSection c (elfNames s).shstrtabName (elfFileBase c s + s.bytes.length) (elfNames s).shstrtab with
    | error e => rw [e1] at h; simp [bind, Except.bind, e2, e3, e4] at h
    | ok h1 =>
    cases e5 : buildStringSection c (elfNames s).strtabName
      (elfFileBase c s + s.bytes.length + (elfNames s).shstrtab.length) (elfNames s).strtab with
    | error e => rw [e1] at h; simp [bind, Except.bind, e2, e3, e4, e5] at h
    | ok h2 =>
    cases e6 : buildSymtabSection c (elfNames s).symtabName
      (elfFileBase c s + s.bytes.length + (elfNames s).shstrtab.length + (elfNames s).strtab.length) symtab
      (s.sections.length + 2) with
    | error e => rw [e1] at h; simp [bind, Except.bind, e2, e3, e4, e5, e6] at h
    | ok h3 =>
    cases e7 : elfHeaderRest c s.sections.length with
    | error e => rw [e1] at h; simp [bind, Except.bind, e2, e3, e4, e5, e6, e7] at h
    | ok rest =>
    rw [e1] at h
    simp only [bind, Except.bind, e2, e3, e4, e5, e6, e7, pure, Except.pure, Except.ok.injEq, Prod.mk.injEq] at h
    obtain ⟨rfl, rfl⟩ := h
    have hl : rest.length = c.headerSize - 24 := by
      rw [structPack_length e7, ElfCfg.headerSize]
      cases c.is64 <;> rfl
    refine ⟨by rw [List.length_append, hl], rest, rfl, ?_⟩
    exact ⟨(null ++ heads ++ h1 ++ h2 ++ h3) ++ s.bytes ++ (elfNames s).shstrtab ++ (elfNames s).strtab ++ symtab,
      by simp only [List.append_assoc]⟩
  obtain ⟨a1, z1, a2, a3⟩ := key h1
  obtain ⟨b1, z2, b2, b3⟩ := key h2
  refine ⟨a1, ?_, by omega⟩
  rw [b2] at b3
  exact (List.prefix_append _ _).trans b3

/-! ## A program with three sections and two exported labels -/

def exElfCode : Str :=
  ".section \"text\" RX $1000\n.export start\n.export msg\nstart:\n.db 1 2 3\n.section \"data\" RW\n.db 9\nmsg:\n.db 4\n.section \"bss\" RW $2000\n".toList

def exElf : St := (assemble mos6502 {} 3 exElfCode mos6502.init).2

theorem exElf_all : (assemble mos6502 {} 3 exElfCode mos6502.init).1 = .ok () ∧ exElf.relocs.length = 0 ∧ exElf.sections =
    [("text".toList, ⟨0x1000, 0, "RX".toList, some 0x1003, some 3⟩), ("data".toList, ⟨0x1003, 3, "RW".toList, some 0x2000, some 2⟩),
      ("bss".toList, ⟨0x2000, 5, "RW".toList, some 0x2000, some 0⟩)] ∧ exElf.labels =
    [("start".toList, ⟨0, 0x1000, some "text".toList⟩), ("msg".toList, ⟨4, 0x1000, some "data".toList⟩)] ∧
    exElf.exports = ["start".toList, "msg".toList] ∧ exElf.bytes = [1, 2, 3, 9, 4] := by decide +kernel
theorem exElf_assembles : (assemble mos6502 {} 3 exElfCode mos6502.init).1 = .ok () := exElf_all.1
theorem exElf_sections : exElf.sections =
    [("text".toList, ⟨0x1000, 0, "RX".toList, some 0x1003, some 3⟩), ("data".toList, ⟨0x1003, 3, "RW".toList, some 0x2000, some 2⟩),
      ("bss".toList, ⟨0x2000, 5, "RW".toList, some 0x2000, some 0⟩)] := exElf_all.2.2.1
theorem exElf_labels : exElf.labels =
    [("start".toList, ⟨0, 0x1000, some "text".toList⟩), ("msg".toList, ⟨4, 0x1000, some "data".toList⟩)] := exElf_all.2.2.2.1
theorem exElf_exports : exElf.exports = ["start".toList, "msg".toList] := exElf_all.2.2.2.2.1
theorem exElf_bytes : exElf.bytes = [1, 2, 3, 9, 4] := exElf_all.2.2.2.2.2

theorem exElf_succeeds (c : ElfCfg) (hc : c ∈ [i386Elf, ppcElf, x86Elf64]) : ∃ file, elfFile c exElf = .ok file := by
  have h1 : 0 ≤ c.eType ∧ c.eType < 2 ^ 16 := by revert c; decide +kernel
  have h2 : 0 ≤ c.machine ∧ c.machine < 2 ^ 16 := by revert c; decide +kernel
  have h3 : 0 ≤ c.alignment ∧ c.alignment < addrLimit c := by revert c; decide +kernel
  have h4 : (2 : Int) ^ 32 ≤ addrLimit c := by revert c; decide +kernel
  refine C43_succeeds c exElf h1 h2 h3 (by rw [exElf_sections]; decide) ?_ ?_ (by
    rw [exElf_sections, exElf_labels, exElf_exports, exElf_bytes]; decide +kernel)
  · rw [exElf_sections, exElf_bytes]
    intro x hx
    simp only [List.mem_cons, List.not_mem_nil, or_false] at hx
    rcases hx with rfl | rfl | rfl
    · exact ⟨⟨by decide, by simp only; omega⟩, 3, rfl, by decide⟩
    · exact ⟨⟨by decide, by simp only; omega⟩, 2, rfl, by decide⟩
    · exact ⟨⟨by decide, by simp only; omega⟩, 0, rfl, by decide⟩
  · rw [exElf_labels, exElf_sections]
    intro l hl _
    simp only [List.mem_cons, List.not_mem_nil, or_false] at hl
    rcases hl with rfl | rfl
    · exact ⟨⟨by decide, by simp only; omega⟩, _, rfl, by decide⟩
    · exact ⟨⟨by decide, by simp only; omega⟩, _, rfl, by decide⟩

/-- The sections of the program in a big-endian and in a 64-bit file. -/
example (c : ElfCfg) (hc : c ∈ [i386Elf, ppcElf, x86Elf64]) : ∃ file e, elfFile c exElf = .ok file ∧ readEhdr file = some e ∧
    contents file (shdr file e 2) = [9, 4] ∧ sectionName file e (shdr file e 2) = utf8 "data".toList ∧
    (shdr file e 2).addr = 0x1003 ∧ (shdr file e 3).type = 8 ∧
    (symbols file e (shdr file e 6)).length = 2 ∧
    ∃ y, (symbols file e (shdr file e 6))[1]? = some (utf8 "msg".toList, y) ∧ y.value = 4 := by
  obtain ⟨file, hf⟩ := exElf_succeeds c hc
  obtain ⟨e, he, -⟩ := C43_header hf
  have hi : exElf.sections[1]? = some ("data".toList, ⟨0x1003, 3, "RW".toList, some 0x2000, some 2⟩) := by rw [exElf_sections]; rfl
  have hb : exElf.sections[2]? = some ("bss".toList, ⟨0x2000, 5, "RW".toList, some 0x2000, some 0⟩) := by rw [exElf_sections]; rfl
  have h1 := C43_section hf he 1 _ _ hi
  have h2 := C43_contents hf he 1 _ _ hi 2 rfl (by rw [exElf_bytes]; decide)
  have h3 := C43_section hf he 2 _ _ hb
  have h4 := C43_symbols hf he (by rw [exElf_labels]; decide)
  rw [exElf_sections, exElf_labels, exElf_exports] at h4
  obtain ⟨y, q1, q2, -⟩ := h4.2 1 "msg".toList ⟨4, 0x1000, some "data".toList⟩ (by decide)
  refine ⟨file, e, hf, he, ?_, h1.2.2.2.2.2.2.2.2 (by decide), ?_, h3.2.2.2.1, h4.1, y, q1, ?_⟩
  · rw [h2, exElf_bytes]; rfl
  · have a1 : ((shdr file e 2).addr : Int) = 0x1003 := h1.1
    omega
  · simp only at q2; omega

/-- The hypotheses of `C43_program` on this program. -/
example (c : ElfCfg) (hc : c ∈ [i386Elf, ppcElf, x86Elf64]) : ∃ file e, elfFile c exElf = .ok file ∧ readEhdr file = some e ∧
    (List.range 3).flatMap (fun i => contents file (shdr file e (i + 1))) = [1, 2, 3, 9, 4] := by
  obtain ⟨file, hf⟩ := exElf_succeeds c hc
  obtain ⟨e, he, -⟩ := C43_header hf
  have hrel : exElf.relocs.length = 0 := exElf_all.2.1
  have hrel' : exElf.relocs = [] := List.length_eq_zero_iff.1 hrel
  have hl : link mos6502 .elf exElf = (.ok (), exElf) := by
    rw [link_resolve mos6502 .elf rfl]
    unfold resolveLabels
    rw [bind_eq, get_eq]
    simp only [hrel']
    rfl
  have := C43_program mos6502 {} (by intro p hp; cases hp) (noCustom (fun _ => rfl) _) (noCustom (fun _ => rfl) _) rfl 3 exElfCode
    mos6502.init exElf exElf Reach.init (pair_ok exElf_assembles) (by rw [hrel']; simp) hl c file e hf he
  obtain ⟨a, h1, h2⟩ := this.2 (by rw [exElf_sections]; simp)
  rw [exElf_sections] at h1 h2
  rw [exElf_bytes] at h2
  simp only [List.getElem?_cons_zero, Option.map_some, Option.some.injEq] at h1
  subst h1
  exact ⟨file, e, hf, he, h2⟩

/-- What the ELF standard asks and the program does not do: in a relocatable file the value of a
symbol is its offset in its section.  The label `msg` is at offset 1 of `data` (address 0x1004,
section address 0x1003), but its symbol says 4, more than the size of the section: the value is
counted from the last origin, which `.section` without an address does not change. -/
theorem C43_value_from_origin : ∃ (s : St) (file : Bytes) (e : Ehdr) (y : Sym), elfFile i386Elf s = .ok file ∧
    readEhdr file = some e ∧ (symbols file e (shdr file e 6))[1]? = some (utf8 "msg".toList, y) ∧ y.shndx = 2 ∧
    s.labels.lookup "msg".toList = some ⟨4, 0x1000, some "data".toList⟩ ∧ (shdr file e 2).addr = 0x1003 ∧
    y.value = 4 ∧ (shdr file e y.shndx).size < y.value := by
  obtain ⟨file, hf⟩ := exElf_succeeds i386Elf (by decide)
  obtain ⟨e, he, -⟩ := C43_header hf
  have hi : exElf.sections[1]? = some ("data".toList, ⟨0x1003, 3, "RW".toList, some 0x2000, some 2⟩) := by rw [exElf_sections]; rfl
  have h1 := C43_section hf he 1 _ _ hi
  have h4 := C43_symbols hf he (by rw [exElf_labels]; decide)
  rw [exElf_sections, exElf_labels, exElf_exports] at h4
  obtain ⟨y, q1, q2, -, -, -, q3, q4⟩ := h4.2 1 "msg".toList ⟨4, 0x1000, some "data".toList⟩ (by decide)
  have hy : y.shndx = 2 := by
    have : y.shndx - 1 < 3 := by
      cases hlt : decide (y.shndx - 1 < 3) with
      | true => simpa using hlt
      | false =>
        rw [List.getElem?_eq_none (by simpa using hlt)] at q4
        simp at q4
    have h3 : y.shndx = 1 ∨ y.shndx = 2 ∨ y.shndx = 3 := by omega
    rcases h3 with h | h | h
    · rw [h] at q4; exact absurd q4 (by decide)
    · exact h
    · rw [h] at q4; exact absurd q4 (by decide)
  have a1 : ((shdr file e 2).addr : Int) = 0x1003 := h1.1
  have a2 : ((shdr file e 2).size : Int) = 2 := h1.2.1
  simp only at q2
  refine ⟨exElf, file, e, y, hf, he, q1, hy, by rw [exElf_labels]; decide, by omega, by omega, ?_⟩
  rw [hy]
  omega

/-- Nor does the table begin with the reserved null symbol: the first entry is the first label
exported, so a reader that skips entry 0, as the standard says, misses it. -/
theorem C43_no_null_symbol : ∃ (s : St) (file : Bytes) (e : Ehdr) (y : Sym), elfFile i386Elf s = .ok file ∧
    readEhdr file = some e ∧ (symbols file e (shdr file e 6))[0]? = some (utf8 "start".toList, y) ∧
    (symbols file e (shdr file e 6)).length = (s.labels.filter fun l => decide (l.1 ∈ s.exports)).length := by
  obtain ⟨file, hf⟩ := exElf_succeeds i386Elf (by decide)
  obtain ⟨e, he, -⟩ := C43_header hf
  have h4 := C43_symbols hf he (by rw [exElf_labels]; decide)
  rw [exElf_sections, exElf_labels, exElf_exports] at h4
  obtain ⟨y, q1, -⟩ := h4.2 0 "start".toList ⟨0, 0x1000, some "text".toList⟩ (by decide)
  exact ⟨exElf, file, e, y, hf, he, q1, by rw [exElf_labels, exElf_exports]; exact h4.1⟩

/-- `C43_outside` on a program that exports a label before its first section. -/
example : ∀ f, elfFile i386Elf { labels := [("a".toList, ⟨0, 0, none⟩)], exports := ["a".toList] } ≠ .ok f :=
  C43_outside ("a".toList, ⟨0, 0, none⟩) (by simp) (by simp) (by simp)

/-- `C43_single_use`: two links of an empty program. -/
example : ∃ h1 f1 h2 f2, elfLink i386Elf [] {} = .ok (f1, h1) ∧ elfLink i386Elf h1 {} = .ok (f2, h2) :=
  ⟨_, _, _, _, rfl, rfl⟩

end Necro
