import Verif.Spec.Programs
import Verif.Props.Checksums
import Verif.Props.Symbols
import Verif.Props.Elf
import Verif.Props.Link
/-!
# C86: what the command line programs do to files
-/

namespace Necro

open Spec

theorem write_other {m : Machine} {name n : Str} {data : Except Err Bytes} {disk : Disk} (h : n ≠ name) :
    (m.write name data disk).2 n = disk n := by
  unfold Machine.write Disk.set
  split
  · rfl
  · split <;> simp [h]

theorem write_error {m : Machine} {name : Str} {b : Bytes} {disk disk' : Disk} {e : Err}
    (h : m.write name (.ok b) disk = (.error e, disk')) : disk' = disk ∧ m.refuses name ≠ none := by
  unfold Machine.write at h
  split at h
  · rename_i x hx
    cases h
    exact ⟨rfl, by simp [hx]⟩
  · cases h

theorem write_ok {m : Machine} {name : Str} {data : Except Err Bytes} {disk disk' : Disk}
    (h : m.write name data disk = (.ok (), disk')) : ∃ b, data = .ok b ∧ Wrote disk name b disk' := by
  unfold Machine.write at h
  split at h
  · cases h
  · split at h
    · cases h
    · rename_i b
      cases h
      exact ⟨b, rfl, by simp [Disk.set], fun n hn => by simp [Disk.set, hn]⟩

/-! ## `Assembler.main` -/

theorem main_other {make : Env → Nat → List Str → Except Err Bytes} {m : Machine} {args : List Str} {disk : Disk} {n : Str}
    (h : n ∉ args.getLast?.toList) : (assemblerMain make m args disk).2 n = disk n := by
  unfold assemblerMain
  split
  · rfl
  · rename_i out ho
    split
    · rfl
    · exact write_other (by simpa [ho] using h)

theorem main_error {make : Env → Nat → List Str → Except Err Bytes} {m : Machine} {args : List Str} {disk disk' : Disk} {e : Err}
    (h : assemblerMain make m args disk = (.error e, disk')) : disk' = disk := by
  unfold assemblerMain at h
  split at h
  · cases h
  · split at h
    · cases h; rfl
    · exact (write_error h).1

theorem main_ok {make : Env → Nat → List Str → Except Err Bytes} {m : Machine} {sources : List Str} {out : Str} {disk disk' : Disk}
    (h : assemblerMain make m (sources ++ [out]) disk = (.ok (), disk')) :
    ∃ b, make (m.view disk) m.depth sources = .ok b ∧ Wrote disk out b disk' := by
  unfold assemblerMain at h
  simp only [List.getLast?_append, List.getLast?_singleton, Option.some_or, List.dropLast_concat] at h
  split at h
  · cases h
  · rename_i b hb
    obtain ⟨b', e, hw⟩ := write_ok h
    cases e
    exact ⟨b, hb, hw⟩

/-! ## The other programs -/

theorem file_other {d : Dialect} {fix : M Unit} {file : Bytes → Except Err Bytes} {m : Machine} {args : List Str} {disk : Disk} {n : Str}
    (h : ∀ x out rest, args = x :: out :: rest → n ≠ out) : (fileMain d fix file m args disk).2 n = disk n := by
  unfold fileMain
  split
  · rfl
  · split
    · exact write_other (h _ _ _ rfl)
    · rfl

theorem file_error {d : Dialect} {fix : M Unit} {file : Bytes → Except Err Bytes} (hf : ∀ code, ∃ b, file code = .ok b) {m : Machine}
    {args : List Str} {disk disk' : Disk} {e : Err} (h : fileMain d fix file m args disk = (.error e, disk')) : disk' = disk := by
  unfold fileMain at h
  split at h
  · cases h; rfl
  · rename_i s _
    split at h
    · obtain ⟨b, hb⟩ := hf s.bytes
      rw [hb] at h
      exact (write_error h).1
    · cases h; rfl

theorem file_ok {d : Dialect} {fix : M Unit} {file : Bytes → Except Err Bytes} {m : Machine}
    {source out : Str} {rest : List Str} {disk disk' : Disk} (h : fileMain d fix file m (source :: out :: rest) disk = (.ok (), disk')) :
    ∃ s s' b, mainRun d (m.view disk) m.depth [source] d.init = (.ok (), s) ∧ fix s = (.ok (), s') ∧ file s'.bytes = .ok b ∧
      Wrote disk out b disk' := by
  unfold fileMain runFile at h
  simp only at h
  split at h
  · cases h
  · rename_i s' hs
    cases hm : mainRun d (m.view disk) m.depth [source] d.init with
    | mk r s =>
    rw [bind_eq, hm] at hs
    cases r with
    | error e => cases hs
    | ok u =>
      obtain ⟨b, hb, hw⟩ := write_ok h
      exact ⟨s, s', b, rfl, hs, hb, hw⟩

theorem nes_state {m : Machine} {args : List Str} {disk : Disk} {s : St} (h : runFile nes (pure ()) m args disk = (.ok (), s)) :
    ∃ source rest nl ram, args = source :: rest ∧ mainRun nes (m.view disk) m.depth [source] nes.init = (.ok (), s) ∧
      nesRomSymbols s = .ok nl ∧ nesRamSymbols s = .ok ram ∧ nesMain (m.view disk) m.depth source = .ok (s.bytes, nl, ram) := by
  unfold runFile at h
  split at h
  · cases h
  · rename_i source rest
    have hm : mainRun nes (m.view disk) m.depth [source] nes.init = (.ok (), s) := by
      rw [bind_eq] at h
      cases hm : mainRun nes (m.view disk) m.depth [source] nes.init with
      | mk r s' =>
      rw [hm] at h
      cases r with
      | error e => cases h
      | ok u => cases h; rfl
    have hb : build nes (m.view disk) m.depth [source] = .ok s.bytes := by rw [build, hm]
    obtain ⟨nl, ram, hn⟩ := (C84_never_fails _ _ _ _).1 hb
    refine ⟨source, rest, nl, ram, rfl, hm, ?_, ?_, hn⟩
    all_goals
      unfold nesMain at hn
      rw [hm] at hn
      simp only at hn
      split at hn
      · cases hn
      · split at hn
        · cases hn
        · cases hn
          assumption

theorem nes_other {m : Machine} {args : List Str} {disk : Disk} {n : Str} (h : n ∉ outputs .nes args) : (nesFiles m args disk).2 n = disk n := by
  unfold nesFiles
  split
  · rfl
  · rename_i s _
    split
    · simp only [outputs, ownMain, if_true, List.mem_cons, List.not_mem_nil, or_false, not_or] at h
      obtain ⟨h1, h2, h3⟩ := h
      have e1 := write_other (m := m) (data := .ok s.bytes) (disk := disk) h1
      split
      · rename_i hw; rw [hw] at e1; exact e1
      · rename_i disk1 hw
        rw [hw] at e1
        have e2 := write_other (m := m) (data := nesRomSymbols s) (disk := disk1) h2
        split
        · rename_i hw2; rw [hw2] at e2; exact e2.trans e1
        · rename_i disk2 hw2
          rw [hw2] at e2
          exact (write_other h3).trans (e2.trans e1)
    · rfl

/-- C86: a program changes no file but the outputs its arguments name, whether it succeeds or fails. -/
theorem C86_only_outputs (t : Tool) (m : Machine) (args : List Str) (disk : Disk) (n : Str) (h : n ∉ outputs t args) :
    (t.run m args disk).2 n = disk n := by
  cases t
  case nes => exact nes_other h
  case gba | genesis | psx => exact file_other (by rintro x out rest rfl; simpa [outputs, ownMain] using h)
  all_goals exact main_other h

/-- C86: a program that fails leaves every file as it was, the destination included.  The program for the NES writes
three files one after the other, so there nothing may keep them from being opened. -/
theorem C86_failure (t : Tool) (m : Machine) (args : List Str) (disk disk' : Disk) (e : Err) (h : t.run m args disk = (.error e, disk'))
    (hw : t = .nes → ∀ n ∈ outputs t args, m.refuses n = none) : disk' = disk := by
  cases t
  case gba | genesis => exact file_error (fun code => ⟨code, rfl⟩) h
  case psx => exact file_error (fun code => (C48_layout code).imp fun _ h => h.1) h
  case nes =>
    have hw := hw rfl
    change nesFiles m args disk = _ at h
    unfold nesFiles at h
    split at h
    · cases h; rfl
    · rename_i s hs
      obtain ⟨source, rest, nl, ram, rfl, -, hnl, hram, -⟩ := nes_state hs
      split at h
      · rename_i he
        cases he
        simp only [outputs, ownMain, if_true, List.mem_cons, List.not_mem_nil, or_false, forall_eq_or_imp, forall_eq] at hw
        obtain ⟨h1, h2, h3⟩ := hw
        simp only [Machine.write, h1, h2, h3, hnl, hram] at h
        cases h
      · cases h; rfl
  all_goals exact main_error h

/-! ## What is written -/

/-- C86: a processor's program, or the one for the Master System, succeeds by writing what assembling and linking all
sources in order gives, and nothing else. -/
theorem C86_processor (t : Tool) (ht : t ∈ [Tool.mos6502, .mips32, .lr35902, .thumb, .mc68000, .i8086, .z80, .ppc, .x86, .sms])
    (m : Machine) (sources : List Str) (out : Str) (disk disk' : Disk) (h : t.run m (sources ++ [out]) disk = (.ok (), disk')) :
    ∃ image, build t.dialect (m.view disk) m.depth sources = .ok image ∧ Wrote disk out image disk' := by
  simp only [List.mem_cons, List.not_mem_nil, or_false] at ht
  rcases ht with rfl | rfl | rfl | rfl | rfl | rfl | rfl | rfl | rfl | rfl <;> exact main_ok h

/-- C86: the same for object files, which are the `ELF` file of the linked program. -/
theorem C86_object (t : Tool) (c : ElfCfg) (ht : (t, c) ∈ [(Tool.i386Elf, Necro.i386Elf), (.ppcElf, Necro.ppcElf), (.x86Elf, x86Elf64)])
    (m : Machine) (sources : List Str) (out : Str) (disk disk' : Disk) (h : t.run m (sources ++ [out]) disk = (.ok (), disk')) :
    ∃ file, elfBuild c t.dialect (m.view disk) m.depth sources = .ok file ∧ Wrote disk out file disk' := by
  simp only [List.mem_cons, List.not_mem_nil, or_false, Prod.mk.injEq] at ht
  rcases ht with ⟨rfl, rfl⟩ | ⟨rfl, rfl⟩ | ⟨rfl, rfl⟩ <;> exact main_ok h

/-- C86: an image written for the Game Boy passes the check of the boot ROM. -/
theorem C86_gameboy (m : Machine) (sources : List Str) (out : Str) (disk disk' : Disk)
    (h : Tool.gameboy.run m (sources ++ [out]) disk = (.ok (), disk')) :
    ∃ image, build (gameboyOn lr35902) (m.view disk) m.depth sources = .ok image ∧ BootCheck image ∧ Wrote disk out image disk' := by
  obtain ⟨image, hb, hw⟩ : ∃ image, build (gameboyOn lr35902) (m.view disk) m.depth sources = .ok image ∧ Wrote disk out image disk' := main_ok h
  refine ⟨image, hb, ?_, hw⟩
  unfold build mainRun at hb
  rw [bind_eq] at hb
  split at hb
  · rename_i s hs
    cases hb
    split at hs
    · exact C44_boot_check lr35902 .dummy _ _ hs
    · cases hs
  · cases hb

theorem build_of {d : Dialect} {env : Env} {depth : Nat} {sources : List Str} {s : St} (h : mainRun d env depth sources d.init = (.ok (), s)) :
    build d env depth sources = .ok s.bytes := by rw [build, h]

/-- C86: an image written for the GBA is the linked program with a complement byte the BIOS accepts. -/
theorem C86_gba (m : Machine) (source out : Str) (rest : List Str) (disk disk' : Disk)
    (h : Tool.gba.run m (source :: out :: rest) disk = (.ok (), disk')) :
    ∃ code image, build thumb (m.view disk) m.depth [source] = .ok code ∧ GbaCheck image ∧ SameOutside 0xBD 0xBD code image ∧
      Wrote disk out image disk' := by
  obtain ⟨s, s', b, h1, h2, h3, hw⟩ := file_ok h
  cases h3
  obtain ⟨c1, c2⟩ := C47_gba_check s s' h2
  exact ⟨s.bytes, s'.bytes, build_of h1, c1, c2, hw⟩

/-- C86: an image written for the Genesis is the linked program with the sum of its words in the header. -/
theorem C86_genesis (m : Machine) (source out : Str) (rest : List Str) (disk disk' : Disk)
    (h : Tool.genesis.run m (source :: out :: rest) disk = (.ok (), disk')) :
    ∃ code image, build mc68000 (m.view disk) m.depth [source] = .ok code ∧ GenesisCheck image ∧ SameOutside 0x18E 0x18F code image ∧
      Wrote disk out image disk' := by
  obtain ⟨s, s', b, h1, h2, h3, hw⟩ := file_ok h
  cases h3
  obtain ⟨c1, c2⟩ := C47_genesis_check s s' h2
  exact ⟨s.bytes, s'.bytes, build_of h1, c1, c2, hw⟩

/-- C86: a file written for the PlayStation is an executable with the linked program. -/
theorem C86_psx (m : Machine) (source out : Str) (rest : List Str) (disk disk' : Disk)
    (h : Tool.psx.run m (source :: out :: rest) disk = (.ok (), disk')) :
    ∃ code file, build psx (m.view disk) m.depth [source] = .ok code ∧ PsxExe code file ∧ Wrote disk out file disk' := by
  obtain ⟨s, s', b, h1, h2, h3, hw⟩ := file_ok h
  cases h2
  obtain ⟨f, hf, hp⟩ := C48_layout s.bytes
  rw [h3] at hf
  cases hf
  exact ⟨s.bytes, b, build_of h1, hp, hw⟩

/-- C86: the program for the NES writes the linked program and the two name lists, and nothing else. -/
theorem C86_nes (m : Machine) (source out : Str) (rest : List Str) (disk disk' : Disk)
    (h : Tool.nes.run m (source :: out :: rest) disk = (.ok (), disk')) :
    ∃ rom nl ram, nesMain (m.view disk) m.depth source = .ok (rom, nl, ram) ∧ disk' out = some rom ∧
      disk' (out ++ ".0.nl".toList) = some nl ∧ disk' (out ++ ".ram.nl".toList) = some ram ∧
      ∀ n, n ∉ [out, out ++ ".0.nl".toList, out ++ ".ram.nl".toList] → disk' n = disk n := by
  have hother : ∀ n, n ∉ [out, out ++ ".0.nl".toList, out ++ ".ram.nl".toList] → disk' n = disk n := by
    intro n hn
    have := C86_only_outputs .nes m (source :: out :: rest) disk n hn
    rwa [h] at this
  change nesFiles m _ disk = _ at h
  unfold nesFiles at h
  split at h
  · cases h
  · rename_i s hs
    obtain ⟨source', rest', nl, ram, he, -, hnl, hram, hn⟩ := nes_state hs
    cases he
    simp only at h
    split at h
    · cases h
    · rename_i disk1 hw1
      split at h
      · cases h
      · rename_i disk2 hw2
        obtain ⟨b1, e1, w1⟩ := write_ok hw1
        obtain ⟨b2, e2, w2⟩ := write_ok hw2
        obtain ⟨b3, e3, w3⟩ := write_ok h
        rw [hnl] at e2
        rw [hram] at e3
        cases e1; cases e2; cases e3
        have d1 : out ≠ out ++ ".0.nl".toList := by simp
        have d2 : out ≠ out ++ ".ram.nl".toList := by simp
        have d3 : out ++ ".0.nl".toList ≠ out ++ ".ram.nl".toList := by simp
        refine ⟨s.bytes, nl, ram, hn, ?_, ?_, w3.1, hother⟩
        · rw [w3.2 _ d2, w2.2 _ d1, w1.1]
        · rw [w3.2 _ d3, w2.1]

/-! ## A forgotten destination -/

theorem main_single {make : Env → Nat → List Str → Except Err Bytes} {m : Machine} {name : Str} {disk : Disk} {f : Bytes}
    (hm : m.refuses name = none) (h : make (m.view disk) m.depth [] = .ok f) :
    assemblerMain make m [name] disk = (.ok (), disk.set name f) := by
  simp only [assemblerMain, List.getLast?_singleton, List.dropLast_singleton, h, Machine.write, hm]

/-- C86 does not protect a source whose destination was forgotten: with one argument `Assembler.main` takes it as the
destination and overwrites it with the output of an empty program. -/
theorem C86_forgotten (t : Tool) (ht : ownMain t = false) (hg : t ≠ .gameboy) : ∃ file : Bytes, file.length ≤ 512 ∧ ∀ (m : Machine) (name : Str)
    (disk : Disk), m.refuses name = none → t.run m [name] disk = (.ok (), disk.set name file) := by
  cases t
  case gba | genesis | psx | nes => cases ht
  case gameboy => exact absurd rfl hg
  case i386Elf =>
    obtain ⟨f, hf, hl⟩ : ∃ f, elfFile Necro.i386Elf i8086.init = .ok f ∧ f.length ≤ 512 := ⟨_, rfl, by decide +kernel⟩
    exact ⟨f, hl, fun m name disk hm => main_single (make := elfBuild Necro.i386Elf i8086) hm hf⟩
  case ppcElf =>
    obtain ⟨f, hf, hl⟩ : ∃ f, elfFile Necro.ppcElf ppc.init = .ok f ∧ f.length ≤ 512 := ⟨_, rfl, by decide +kernel⟩
    exact ⟨f, hl, fun m name disk hm => main_single (make := elfBuild Necro.ppcElf ppc) hm hf⟩
  case x86Elf =>
    obtain ⟨f, hf, hl⟩ : ∃ f, elfFile x86Elf64 x86.init = .ok f ∧ f.length ≤ 512 := ⟨_, rfl, by decide +kernel⟩
    exact ⟨f, hl, fun m name disk hm => main_single (make := elfBuild x86Elf64 x86) hm hf⟩
  case mos6502 => exact ⟨[], by decide, fun m name disk hm => main_single (make := build mos6502) hm rfl⟩
  case mips32 => exact ⟨[], by decide, fun m name disk hm => main_single (make := build mips32) hm rfl⟩
  case lr35902 => exact ⟨[], by decide, fun m name disk hm => main_single (make := build lr35902) hm rfl⟩
  case thumb => exact ⟨[], by decide, fun m name disk hm => main_single (make := build thumb) hm rfl⟩
  case mc68000 => exact ⟨[], by decide, fun m name disk hm => main_single (make := build mc68000) hm rfl⟩
  case i8086 => exact ⟨[], by decide, fun m name disk hm => main_single (make := build i8086) hm rfl⟩
  case z80 => exact ⟨[], by decide, fun m name disk hm => main_single (make := build z80) hm rfl⟩
  case ppc => exact ⟨[], by decide, fun m name disk hm => main_single (make := build ppc) hm rfl⟩
  case x86 => exact ⟨[], by decide, fun m name disk hm => main_single (make := build x86) hm rfl⟩
  case sms => exact ⟨[], by decide, fun m name disk hm => main_single (make := build (smsOn z80)) hm rfl⟩

/-- C86: the other programs fail without a destination and leave the source alone. -/
theorem C86_kept (t : Tool) (ht : ownMain t = true ∨ t = .gameboy) (m : Machine) (name : Str) (disk : Disk) :
    ∃ e, t.run m [name] disk = (.error e, disk) := by
  rcases ht with ht | rfl
  · cases t <;> first | (cases ht; done) | skip
    all_goals
      simp only [Tool.run, fileMain, nesFiles]
      split
      · exact ⟨_, rfl⟩
      · exact ⟨_, rfl⟩
  · exact ⟨.indexError, rfl⟩

/-! ## Examples -/

/-- ASCII files. -/
def exMachine (refuses : Str → Option Err := fun _ => none) : Machine where
  view disk := { text := fun n => (disk n).map fun b => b.map fun x => Char.ofNat x.toNat, binary := disk }
  refuses := refuses
  depth := 3

def exDisk (source : String) : Disk := fun n =>
  if n = "a.asm".toList then some (source.toList.map fun c => BitVec.ofNat 8 c.toNat)
  else if n = "a.bin".toList then some [1, 2, 3] else none

def exArgs : List Str := ["a.asm".toList, "a.bin".toList]

example : ∃ image, build mos6502 ((exMachine).view (exDisk "LDA #1\n")) 3 ["a.asm".toList] = .ok image ∧
    Wrote (exDisk "LDA #1\n") "a.bin".toList image (Tool.mos6502.run exMachine exArgs (exDisk "LDA #1\n")).2 :=
  C86_processor .mos6502 (by decide) exMachine ["a.asm".toList] "a.bin".toList (exDisk "LDA #1\n") _ (pair_ok (by decide +kernel))

example : (Tool.mos6502.run exMachine exArgs (exDisk "LDA #1\n")).2 "a.bin".toList = some [0xA9, 1] := by decide +kernel

/-- A program that does not assemble: the old output stays. -/
example : (Tool.psx.run exMachine exArgs (exDisk "bogus\n")).2 = exDisk "bogus\n" :=
  C86_failure .psx exMachine exArgs (exDisk "bogus\n") _ .unknownInstruction (pair_ok (by decide +kernel)) (fun h => by cases h)

example : (Tool.nes.run exMachine exArgs (exDisk "bogus\n")).2 = exDisk "bogus\n" :=
  C86_failure .nes exMachine exArgs (exDisk "bogus\n") _ .unknownInstruction (pair_ok (by decide +kernel)) (fun _ _ _ => rfl)

/-- For the NES a name list that cannot be opened makes the program fail after the ROM was replaced. -/
theorem C86_nes_late : ∃ (m : Machine) (disk : Disk) (e : Err), (Tool.nes.run m exArgs disk).1 = .error e ∧
    (Tool.nes.run m exArgs disk).2 "a.bin".toList ≠ disk "a.bin".toList :=
  ⟨exMachine fun n => if n = "a.bin.0.nl".toList then some .fileNotFoundError else none, exDisk "NOP\n", .fileNotFoundError,
    by decide +kernel, by decide +kernel⟩

example : ∃ rom nl ram, nesMain ((exMachine).view (exDisk "a: NOP\n")) 3 "a.asm".toList = .ok (rom, nl, ram) ∧
    (Tool.nes.run exMachine exArgs (exDisk "a: NOP\n")).2 "a.bin".toList = some rom ∧
    (Tool.nes.run exMachine exArgs (exDisk "a: NOP\n")).2 ("a.bin".toList ++ ".0.nl".toList) = some nl ∧
    (Tool.nes.run exMachine exArgs (exDisk "a: NOP\n")).2 ("a.bin".toList ++ ".ram.nl".toList) = some ram ∧
    ∀ n, n ∉ ["a.bin".toList, "a.bin".toList ++ ".0.nl".toList, "a.bin".toList ++ ".ram.nl".toList] →
      (Tool.nes.run exMachine exArgs (exDisk "a: NOP\n")).2 n = exDisk "a: NOP\n" n :=
  C86_nes exMachine "a.asm".toList "a.bin".toList [] (exDisk "a: NOP\n") _ (pair_ok (by decide +kernel))

example : ∃ code image, build thumb ((exMachine).view (exDisk ".fill 0xC0\n")) 3 ["a.asm".toList] = .ok code ∧ GbaCheck image ∧
    SameOutside 0xBD 0xBD code image ∧ Wrote (exDisk ".fill 0xC0\n") "a.bin".toList image (Tool.gba.run exMachine exArgs (exDisk ".fill 0xC0\n")).2 :=
  C86_gba exMachine "a.asm".toList "a.bin".toList [] (exDisk ".fill 0xC0\n") _ (pair_ok (by decide +kernel))

example : ∃ code image, build mc68000 ((exMachine).view (exDisk ".fill $202\n")) 3 ["a.asm".toList] = .ok code ∧ GenesisCheck image ∧
    SameOutside 0x18E 0x18F code image ∧ Wrote (exDisk ".fill $202\n") "a.bin".toList image (Tool.genesis.run exMachine exArgs (exDisk ".fill $202\n")).2 :=
  C86_genesis exMachine "a.asm".toList "a.bin".toList [] (exDisk ".fill $202\n") _ (pair_ok (by decide +kernel))

example : ∃ code file, build psx ((exMachine).view (exDisk "addiu $t0, $t1, 1\n")) 3 ["a.asm".toList] = .ok code ∧ PsxExe code file ∧
    Wrote (exDisk "addiu $t0, $t1, 1\n") "a.bin".toList file (Tool.psx.run exMachine exArgs (exDisk "addiu $t0, $t1, 1\n")).2 :=
  C86_psx exMachine "a.asm".toList "a.bin".toList [] (exDisk "addiu $t0, $t1, 1\n") _ (pair_ok (by decide +kernel))

example : ∃ image, build (gameboyOn lr35902) ((exMachine).view (exDisk ".fill $150\n")) 3 ["a.asm".toList] = .ok image ∧ BootCheck image ∧
    Wrote (exDisk ".fill $150\n") "a.bin".toList image (Tool.gameboy.run exMachine exArgs (exDisk ".fill $150\n")).2 :=
  C86_gameboy exMachine ["a.asm".toList] "a.bin".toList (exDisk ".fill $150\n") _ (pair_ok (by decide +kernel))

example : ∃ file, elfBuild x86Elf64 x86 ((exMachine).view (exDisk ".section t RX\nRET\n")) 3 ["a.asm".toList] = .ok file ∧
    Wrote (exDisk ".section t RX\nRET\n") "a.bin".toList file (Tool.x86Elf.run exMachine exArgs (exDisk ".section t RX\nRET\n")).2 :=
  C86_object .x86Elf x86Elf64 (by decide) exMachine ["a.asm".toList] "a.bin".toList (exDisk ".section t RX\nRET\n") _ (pair_ok (by decide +kernel))

/-- The source is gone. -/
example : (Tool.z80.run exMachine ["a.asm".toList] (exDisk "NOP\n")).2 "a.asm".toList = some [] := by decide +kernel

example : ∃ file : Bytes, file.length ≤ 512 ∧ ∀ (m : Machine) (name : Str) (disk : Disk), m.refuses name = none →
    Tool.x86Elf.run m [name] disk = (.ok (), disk.set name file) := C86_forgotten .x86Elf rfl (by decide)

end Necro
