import Verif.Props.Programs
import Verif.Lemmas.FileView
/-!
# C87: a build depends on the files it reads only
-/

namespace Necro

open Spec

theorem tool_custom (t : Tool) {env env' : Env} (he : FewerFiles env env') : CustomLe t.dialect env env' := by
  cases t
  case sms => exact custom_sms he
  case gameboy => exact custom_gameboy he
  case nes => exact custom_nes he
  all_goals exact custom_same fun _ _ _ => rfl

theorem le_mainRun (t : Tool) {env env' : Env} (he : FewerFiles env env') (depth : Nat) (sources : List Str) :
    Le (mainRun t.dialect env depth sources) (mainRun t.dialect env' depth sources) :=
  files_sources he (tool_custom t he) depth .dummy sources

/-- C87: a build that succeeds gives the same bytes when there are more files. -/
theorem C87_build (t : Tool) {env env' : Env} (he : FewerFiles env env') (depth : Nat) (sources : List Str) (image : Bytes)
    (h : build t.dialect env depth sources = .ok image) : build t.dialect env' depth sources = .ok image := by
  unfold build at h ⊢
  split at h
  · rename_i s hs
    rw [(le_mainRun t he depth sources).le _ _ _ hs]
    exact h
  · cases h

/-- C87: the same for object files. -/
theorem C87_object (t : Tool) (c : ElfCfg) {env env' : Env} (he : FewerFiles env env') (depth : Nat) (sources : List Str) (file : Bytes)
    (h : elfBuild c t.dialect env depth sources = .ok file) : elfBuild c t.dialect env' depth sources = .ok file := by
  unfold elfBuild at h ⊢
  split at h
  · rename_i s hs
    rw [(files_sources he (tool_custom t he) depth .elf sources).le _ _ _ hs]
    exact h
  · cases h

/-- Some files written one after the other. -/
def setAll (ws : List (Str × Bytes)) (disk : Disk) : Disk := ws.foldl (fun d w => d.set w.1 w.2) disk

theorem setAll_mem (ws : List (Str × Bytes)) : ∀ (disk disk' : Disk) (n : Str), (n ∈ ws.map Prod.fst ∨ disk n = disk' n) →
    setAll ws disk n = setAll ws disk' n := by
  induction ws with
  | nil =>
    intro disk disk' n h
    rcases h with h | h
    · cases h
    · exact h
  | cons w ws ih =>
    intro disk disk' n h
    refine ih _ _ n ?_
    by_cases hn : n = w.1
    · right; simp [Disk.set, hn]
    · rcases h with h | h
      · rcases List.mem_cons.1 h with h | h
        · exact absurd h hn
        · exact .inl h
      · right; simp [Disk.set, hn, h]

theorem write_set {m : Machine} {name : Str} {data : Except Err Bytes} {disk disk' : Disk} (h : m.write name data disk = (.ok (), disk')) :
    ∃ b, data = .ok b ∧ disk' = disk.set name b ∧ ∀ old, m.write name data old = (.ok (), old.set name b) := by
  unfold Machine.write at h ⊢
  split at h
  · cases h
  · split at h
    · cases h
    · rename_i b
      cases h
      exact ⟨b, rfl, rfl, fun _ => rfl⟩

theorem main_more {make : Env → Nat → List Str → Except Err Bytes} {m : Machine} {args : List Str} {disk disk' old : Disk}
    (hmake : ∀ b, make (m.view disk) m.depth args.dropLast = .ok b → make (m.view old) m.depth args.dropLast = .ok b)
    (h : assemblerMain make m args disk = (.ok (), disk')) :
    ∃ ws, ws.map Prod.fst = args.getLast?.toList ∧ disk' = setAll ws disk ∧ assemblerMain make m args old = (.ok (), setAll ws old) := by
  unfold assemblerMain at h ⊢
  cases hl : args.getLast? with
  | none =>
    simp only [hl] at h ⊢
    cases h
    exact ⟨[], rfl, rfl, rfl⟩
  | some out =>
    simp only [hl] at h ⊢
    cases hb : make (m.view disk) m.depth args.dropLast with
    | error e => simp only [hb] at h; cases h
    | ok b =>
      simp only [hb] at h
      rw [hmake b hb]
      obtain ⟨b', e, rfl, hw⟩ := write_set h
      exact ⟨[(out, b')], rfl, rfl, hw old⟩

theorem runFile_more (t : Tool) (fix : M Unit) {m : Machine} {args : List Str} {disk old : Disk} {s : St}
    (he : FewerFiles (m.view disk) (m.view old)) (h : runFile t.dialect fix m args disk = (.ok (), s)) :
    runFile t.dialect fix m args old = (.ok (), s) := by
  unfold runFile at h ⊢
  split at h
  · cases h
  · exact (le_bind (le_mainRun t he m.depth _) fun _ => .refl _).le _ _ _ h

theorem file_more (t : Tool) (fix : M Unit) {file : Bytes → Except Err Bytes} {m : Machine} {args : List Str} {disk disk' old : Disk}
    (he : FewerFiles (m.view disk) (m.view old)) (h : fileMain t.dialect fix file m args disk = (.ok (), disk')) :
    ∃ ws, (∃ x out rest, args = x :: out :: rest ∧ ws.map Prod.fst = [out]) ∧ disk' = setAll ws disk ∧
      fileMain t.dialect fix file m args old = (.ok (), setAll ws old) := by
  unfold fileMain at h ⊢
  split at h
  · cases h
  · rename_i s hs
    rw [runFile_more t fix he hs]
    simp only
    split at h
    · rename_i x out rest
      obtain ⟨b, e, rfl, hw⟩ := write_set h
      exact ⟨[(out, b)], ⟨x, out, rest, rfl, rfl⟩, rfl, hw old⟩
    · cases h

theorem run_more (t : Tool) {m : Machine} {args : List Str} {disk disk' old : Disk} (he : FewerFiles (m.view disk) (m.view old))
    (h : t.run m args disk = (.ok (), disk')) :
    ∃ ws, ws.map Prod.fst = outputs t args ∧ disk' = setAll ws disk ∧ t.run m args old = (.ok (), setAll ws old) := by
  cases t
  case gba =>
    obtain ⟨ws, ⟨x, out, rest, rfl, hw⟩, h1, h2⟩ := file_more .gba _ he h
    exact ⟨ws, hw, h1, h2⟩
  case genesis =>
    obtain ⟨ws, ⟨x, out, rest, rfl, hw⟩, h1, h2⟩ := file_more .genesis _ he h
    exact ⟨ws, hw, h1, h2⟩
  case psx =>
    obtain ⟨ws, ⟨x, out, rest, rfl, hw⟩, h1, h2⟩ := file_more .psx _ he h
    exact ⟨ws, hw, h1, h2⟩
  case nes =>
    change nesFiles m args disk = _ at h
    change ∃ ws, _ ∧ _ ∧ nesFiles m args old = _
    unfold nesFiles at h ⊢
    split at h
    · cases h
    · rename_i s hs
      rw [show runFile nes (pure ()) m args old = _ from runFile_more .nes (pure ()) he hs]
      simp only
      split at h
      · rename_i x out rest
        split at h
        · cases h
        · rename_i d1 hw1
          split at h
          · cases h
          · rename_i d2 hw2
            obtain ⟨b1, e1, rfl, w1⟩ := write_set hw1
            obtain ⟨b2, e2, rfl, w2⟩ := write_set hw2
            obtain ⟨b3, e3, rfl, w3⟩ := write_set h
            refine ⟨[(out, b1), (out ++ ".0.nl".toList, b2), (out ++ ".ram.nl".toList, b3)], rfl, rfl, ?_⟩
            rw [w1]; simp only
            rw [w2]; simp only
            rw [w3]
            rfl
      · cases h
  case i386Elf => exact main_more (fun b => C87_object .i386Elf _ he _ _ b) h
  case ppcElf => exact main_more (fun b => C87_object .ppcElf _ he _ _ b) h
  case x86Elf => exact main_more (fun b => C87_object .x86Elf _ he _ _ b) h
  case mos6502 => exact main_more (fun b => C87_build .mos6502 he _ _ b) h
  case mips32 => exact main_more (fun b => C87_build .mips32 he _ _ b) h
  case lr35902 => exact main_more (fun b => C87_build .lr35902 he _ _ b) h
  case thumb => exact main_more (fun b => C87_build .thumb he _ _ b) h
  case mc68000 => exact main_more (fun b => C87_build .mc68000 he _ _ b) h
  case i8086 => exact main_more (fun b => C87_build .i8086 he _ _ b) h
  case z80 => exact main_more (fun b => C87_build .z80 he _ _ b) h
  case ppc => exact main_more (fun b => C87_build .ppc he _ _ b) h
  case x86 => exact main_more (fun b => C87_build .x86 he _ _ b) h
  case sms => exact main_more (fun b => C87_build .sms he _ _ b) h
  case gameboy => exact main_more (fun b => C87_build .gameboy he _ _ b) h

/-- C87: a program that succeeds succeeds also when there are more files, and writes the same contents. -/
theorem C87_more_files (t : Tool) (m : Machine) (hm : ReadsFiles m) (args : List Str) (disk disk' old : Disk)
    (hsub : ∀ n b, disk n = some b → old n = some b) (h : t.run m args disk = (.ok (), disk')) :
    ∃ old', t.run m args old = (.ok (), old') ∧ ∀ n ∈ outputs t args, old' n = disk' n := by
  obtain ⟨ws, hk, rfl, hr⟩ := run_more t (hm _ _ hsub) h
  exact ⟨_, hr, fun n hn => setAll_mem ws _ _ n (.inl (hk ▸ hn))⟩

/-- C87: old outputs do not matter.  If a program succeeds while its outputs do not exist, then it does with whatever
they held before, and the files are the same afterwards; so running it once more changes nothing. -/
theorem C87_rebuild (t : Tool) (m : Machine) (hm : ReadsFiles m) (args : List Str) (disk disk' old : Disk)
    (hnone : ∀ n ∈ outputs t args, disk n = none) (hsame : ∀ n, n ∉ outputs t args → old n = disk n)
    (h : t.run m args disk = (.ok (), disk')) :
    t.run m args old = (.ok (), disk') ∧ t.run m args disk' = (.ok (), disk') := by
  have key : ∀ old : Disk, (∀ n, n ∉ outputs t args → old n = disk n) → t.run m args old = (.ok (), disk') := by
    intro old hsame
    have hsub : ∀ n b, disk n = some b → old n = some b := by
      intro n b hb
      by_cases hn : n ∈ outputs t args
      · rw [hnone n hn] at hb; cases hb
      · rw [hsame n hn, hb]
    obtain ⟨ws, hk, rfl, hr⟩ := run_more t (hm _ _ hsub) h
    rw [hr]
    congr 1
    funext n
    by_cases hn : n ∈ outputs t args
    · exact setAll_mem ws _ _ n (.inl (hk ▸ hn))
    · exact setAll_mem ws _ _ n (.inr (hsame n hn))
  refine ⟨key old hsame, key disk' fun n hn => ?_⟩
  have := C86_only_outputs t m args disk n hn
  rwa [h] at this

/-! ## Examples -/

theorem exMachine_reads : ReadsFiles (exMachine) := by
  intro disk disk' h
  refine ⟨fun n c hc => ?_, h, fun n c hc => (by cases hc), fun n k c hc => (by cases hc), fun n c hc => (by cases hc)⟩
  simp only [exMachine, Option.map_eq_some_iff] at hc ⊢
  obtain ⟨b, hb, e⟩ := hc
  exact ⟨b, h n b hb, e⟩

/-- A source and a file it includes, and perhaps an output. -/
def exInclude (out : Option Bytes) : Disk := fun n =>
  if n = "a.asm".toList then some ("LDA #1\n.include \"b.asm\"\n".toList.map fun c => BitVec.ofNat 8 c.toNat)
  else if n = "b.asm".toList then some ("STA $10\n".toList.map fun c => BitVec.ofNat 8 c.toNat)
  else if n = "a.bin".toList then out else none

example : (Tool.mos6502.run exMachine exArgs (exInclude none)).2 "a.bin".toList = some [0xA9, 1, 0x85, 0x10] := by decide +kernel

/-- Whatever the output held before. -/
example (out : Option Bytes) : Tool.mos6502.run exMachine exArgs (exInclude out) = (.ok (), (Tool.mos6502.run exMachine exArgs (exInclude none)).2) :=
  (C87_rebuild .mos6502 exMachine exMachine_reads exArgs (exInclude none) _ (exInclude out)
    (by simp [outputs, ownMain, exArgs, exInclude])
    (by intro n hn; simp [outputs, ownMain, exArgs] at hn; simp [exInclude, hn]) (pair_ok (by decide +kernel))).1

/-- The outputs have to be absent in C87_rebuild: a program that reads its own output grows each time. -/
theorem C87_own_output : ∃ (m : Machine) (disk disk' disk'' : Disk), ReadsFiles m ∧ Tool.mos6502.run m exArgs disk = (.ok (), disk') ∧
    Tool.mos6502.run m exArgs disk' = (.ok (), disk'') ∧ disk' "a.bin".toList = some [0xEA, 1, 2, 3] ∧
    disk'' "a.bin".toList = some [0xEA, 0xEA, 1, 2, 3] :=
  ⟨exMachine, exDisk "NOP\n.incbin \"a.bin\"\n", _, _, exMachine_reads, pair_ok (by decide +kernel), pair_ok (by decide +kernel),
    by decide +kernel, by decide +kernel⟩

end Necro
