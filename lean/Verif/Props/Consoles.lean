import Verif.Props.Checksums
import Verif.Props.Mos6502
import Verif.Props.Lr35902Link
import Verif.Props.Z80Link
import Verif.Props.ThumbLink
import Verif.Props.Mc68000Link
import Verif.Props.Mips32
import Verif.Lemmas.Console
/-!
# C76: the image made for a console contains the code of its processor
-/

namespace Necro
open Spec

/-! ## the directives of a console do not disturb code behind the header -/

/-- C76: an instruction behind the cartridge header stays as it is while any statements follow it, those that fill in the header
included. -/
theorem C76_gameboy_stays (base : Dialect) (env : Env) (n m : Nat) (stmts : List Stmt) {depth ln : Nat} {tokens : List Str} {s s1 : St} {t : Str}
    {rest : List Str} (ha : 0x14B ≤ s.bytes.length) (hrec : s.recording = none) (hsub : substituteWithDict tokens s.defines 0 = t :: rest)
    (hmac : s.macros.lookup (base.key t) = none) (hrun : execInstr (gameboyOn base) (depth + 1) none ⟨.instr, tokens, ln⟩ s = (.ok (), s1)) :
    InProgram (gameboyOn base) s t rest (execStmts (gameboyOn base) env n (assemble (gameboyOn base) env m) stmts s1).2 :=
  have hc := gameboy_custom base env ha
  .mk hrec hsub hmac hrun (keeps_execStmts (rel_kept _ _) env n _ (fun c => keeps_assemble (rel_kept _ _) env hc m c) hc stmts s1)

/-- C76: the same for the NES; of its header only the bytes 5 and 6 are filled in later. -/
theorem C76_nes_stays (env : Env) (n m : Nat) (stmts : List Stmt) {depth ln : Nat} {tokens : List Str} {s s1 : St} {t : Str}
    {rest : List Str} (ha : 7 ≤ s.bytes.length) (hrec : s.recording = none) (hsub : substituteWithDict tokens s.defines 0 = t :: rest)
    (hmac : s.macros.lookup (nes.key t) = none) (hrun : execInstr nes (depth + 1) none ⟨.instr, tokens, ln⟩ s = (.ok (), s1)) :
    InProgram nes s t rest (execStmts nes env n (assemble nes env m) stmts s1).2 :=
  have hc := nes_custom env ha
  .mk hrec hsub hmac hrun (keeps_execStmts (rel_kept _ _) env n _ (fun c => keeps_assemble (rel_kept _ _) env hc m c) hc stmts s1)

/-- C76: the Master System assembler has no header directives: an instruction stays wherever it is. -/
theorem C76_sms_stays (base : Dialect) (env : Env) (n m : Nat) (stmts : List Stmt) {depth ln : Nat} {tokens : List Str} {s s1 : St} {t : Str}
    {rest : List Str} (hrec : s.recording = none) (hsub : substituteWithDict tokens s.defines 0 = t :: rest)
    (hmac : s.macros.lookup (base.key t) = none) (hrun : execInstr (smsOn base) (depth + 1) none ⟨.instr, tokens, ln⟩ s = (.ok (), s1)) :
    InProgram (smsOn base) s t rest (execStmts (smsOn base) env n (assemble (smsOn base) env m) stmts s1).2 :=
  have hc := sms_custom base env (rel_kept base s.bytes.length).toDataRel
  .mk hrec hsub hmac hrun (keeps_execStmts (rel_kept _ _) env n _ (fun c => keeps_assemble (rel_kept _ _) env hc m c) hc stmts s1)

/-! ## the linked image -/

/-- C76: linking for the Game Boy gives what the processor's assembler gives, apart from the three checksum bytes. -/
theorem C76_gameboy_image (base : Dialect) (hp : base.postLink = pure ()) (k : LinkerKind) (s s3 : St)
    (h : link (gameboyOn base) k s = (.ok (), s3)) :
    ∃ s', link base k s = (.ok (), s') ∧ SameOutside 0x14D 0x14F s'.bytes s3.bytes ∧ BootCheck s3.bytes := by
  obtain ⟨s', h1, -⟩ := link_unless h
  have hr := h1
  rw [(same_gameboy base).resolve] at hr
  exact ⟨s', link_of_resolve hp hr, (C44_only_checksums base k s s' s3 h1 h).1, C44_boot_check base k s s3 h⟩

/-- C76: linking for the NES is linking for its processor. -/
theorem C76_nes_image (k : LinkerKind) : link nes k = link mos6502 k := rfl

/-- C76: linking for the Master System is linking for its processor. -/
theorem C76_sms_image (base : Dialect) (k : LinkerKind) : link (smsOn base) k = link base k := rfl

/-- C76: in a Game Boy image the boot ROM accepts, an instruction with a label as operand is the instruction written. -/
theorem C76_gameboy (s s2 s3 : St) (t : Str) (rest : List Str) (blob : Bytes) (r : Reloc) (hpc : 0 ≤ s.pc)
    (hem : Emits (gameboyOn lr35902) (ctxOf (gameboyOn lr35902) s) t rest blob [r]) (hodd : ¬ GbOdd t rest)
    (hplain : ∀ ch ∈ r.label, formulaChar ch = false) (hprog : InProgram (gameboyOn lr35902) s t rest s2)
    (hlink : LinksClear (gameboyOn lr35902) s2 s3 s.bytes.length blob.length (s.bytes.length + 1))
    (hsum : s.bytes.length + blob.length ≤ 0x14D ∨ 0x150 ≤ s.bytes.length) :
    BootCheck s3.bytes ∧ ∃ l i, s2.labels.lookup r.label = some l ∧ decodeGb (window s3.bytes s.bytes.length blob.length) = some i ∧
      GbWritten (fun tok x => tok = r.label ∧ x = i.value) t rest i ∧ i.value = gbReference i.args s.pc (l.org + l.base) := by
  obtain ⟨s', h1, h2, h3⟩ := C76_gameboy_image lr35902 rfl .dummy s2 s3 hlink.ok
  refine ⟨h3, ?_⟩
  rw [window_outside h2 (by omega)]
  exact C59_linked s s2 s' t rest blob r hpc ((same_gameboy _).emits hem) hodd hplain ((same_gameboy _).program hprog)
    ⟨h1, hlink.ordinary, hlink.nodup, hlink.clear⟩

/-- C76: and an instruction without references is in the image as it was assembled. -/
theorem C76_gameboy_plain (s s2 s3 : St) (t : Str) (rest : List Str) (blob : Bytes)
    (hem : Emits (gameboyOn lr35902) (ctxOf (gameboyOn lr35902) s) t rest blob []) (hodd : ¬ GbOdd t rest)
    (hprog : InProgram (gameboyOn lr35902) s t rest s2) (hlink : LinksOwn (gameboyOn lr35902) s2 s3 s.bytes.length blob.length [])
    (hsum : s.bytes.length + blob.length ≤ 0x14D ∨ 0x150 ≤ s.bytes.length) :
    BootCheck s3.bytes ∧ ∃ i, decodeGb (window s3.bytes s.bytes.length blob.length) = some i ∧
      GbWritten (OperandValue (ctxOf lr35902 s) []) t rest i := by
  obtain ⟨s', h1, h2, h3⟩ := C76_gameboy_image lr35902 rfl .dummy s2 s3 hlink.ok
  have hem' := (same_gameboy lr35902).emits hem
  refine ⟨h3, ?_⟩
  rw [window_outside h2 (by omega)]
  have hown : LinksOwn lr35902 s2 s' s.bytes.length blob.length [] := ⟨h1, hlink.ordinary, hlink.nodup, hlink.own⟩
  have := own_untouched rfl hown (((same_gameboy _).program hprog).code hem') (o := 0) (m := blob.length) (by omega) (by simp)
  rw [Nat.add_zero] at this
  rw [this, show window blob 0 blob.length = blob by simp [window]]
  exact C58_decodes _ t rest blob [] hem' hodd

/-- C76: a Game Boy program with a reference that does not fit does not link. -/
theorem C76_gameboy_rejected (s s2 : St) (t : Str) (rest : List Str) (blob : Bytes) (r : Reloc) (i : GbInstr) (l : LabelInfo) (hpc : 0 ≤ s.pc)
    (hem : Emits (gameboyOn lr35902) (ctxOf (gameboyOn lr35902) s) t rest blob [r]) (hodd : ¬ GbOdd t rest)
    (hplain : ∀ ch ∈ r.label, formulaChar ch = false) (hprog : InProgram (gameboyOn lr35902) s t rest s2)
    (hord : ∀ e ∈ s2.relocs, Ordinary e.2) (hlk : s2.labels.lookup r.label = some l)
    (hi : decodeGb blob = some i) (hfar : ¬ (gbData i.args).holds (gbReference i.args s.pc (l.org + l.base))) :
    (link (gameboyOn lr35902) .dummy s2).1 ≠ .ok () := by
  intro h
  obtain ⟨s', h1, -⟩ := C76_gameboy_image lr35902 rfl .dummy s2 _ (pair_ok h)
  refine C60_rejected s s2 t rest blob r i l hpc ((same_gameboy _).emits hem) hodd hplain ((same_gameboy _).program hprog) hord hlk hi hfar ?_
  rw [h1]

/-- C76: in a linked NES program the byte after a branch leads to the label. -/
theorem C76_nes (s s2 s3 : St) (t label : Str) (rest : List Str) (op : Nat) (m : String) (ho : op < 256)
    (hd : decode6502 op = some (m, .relative)) (ht : upper t = m.toList) (hpc : 0 ≤ s.pc)
    (hnum : parseInteger nes.sy s.labels label 8 true = .ok none) (hplain : ∀ ch ∈ label, formulaChar ch = false)
    (hprog : InProgram nes s t (label :: rest) s2) (hlink : LinksAlone nes s2 s3 (s.bytes.length + 1) (branchRef label s.pc)) :
    ∃ l disp, s2.labels.lookup label = some l ∧ s3.bytes[s.bytes.length + 1]? = some disp ∧
      s.pc + 2 + disp.toInt = l.org + l.base := by
  cases hprog with
  | @mk depth ln tokens s1 hrec hsub hmac hrun hk =>
    exact C51_reaches s s1 s2 s3 depth tokens ln t label rest op m ho hd ht hrec hsub hmac hpc hnum hplain
      (same_nes.exec hrec hsub hmac hrun) hk hlink.ok hlink.ordinary hlink.nodup hlink.apart

/-- C76: in a linked Master System program an instruction with a label as operand is the instruction written. -/
theorem C76_sms {s s1 s2 : St} {t : Str} {rest : List Str} {blob : Bytes} {rels : List Reloc} (hpc : 0 ≤ s.pc)
    (hprog : InProgram (smsOn z80) s t rest s1) (hem : Emits (smsOn z80) (ctxOf (smsOn z80) s) t rest blob rels) (hne : rels ≠ [])
    (ho : ¬ Z80Odd t rest) (hplain : ∀ r ∈ rels, r.label ≠ [] ∧ ∀ ch ∈ r.label, formulaChar ch = false)
    (hlink : ∀ r ∈ rels, LinksClear (smsOn z80) s1 s2 s.bytes.length blob.length (s.bytes.length + r.offset)) :
    ∃ i, decodeZ80 (window s2.bytes s.bytes.length blob.length) = some i ∧ Z80Written (z80Linked s s1) t rest i :=
  C72_linked hpc ((same_sms _).program hprog) ((same_sms _).emits hem) hne ho hplain
    fun r hr => let h := hlink r hr; ⟨h.ok, h.ordinary, h.nodup, h.clear⟩

/-- C76: in a Game Boy Advance image with its checksum in place, a Thumb branch leads to its label. -/
theorem C76_gba (s s2 s3 s4 : St) (op : TOp) (hop : op ∈ thBranches) (t label : Str) (ht : eqNoCase t op.name.toList) (hpc : 0 ≤ s.pc)
    (hne : label ≠ []) (hhash : label.head? ≠ some '#') (hplain : ∀ ch ∈ label, formulaChar ch = false)
    (hnum : parseInteger thumb.sy s.labels label (thReach op + 2) true = .ok none)
    (hprog : InProgram thumb s t [label] s2) (hlink : LinksAlone thumb s2 s3 s.bytes.length (thOffsetRef (thReach op) label s.pc))
    (hfix : gbaFix s3 = (.ok (), s4)) (hsum : s.bytes.length + 2 ≤ 0xBD ∨ 0xBD < s.bytes.length) :
    GbaCheck s4.bytes ∧ ∃ l off, s2.labels.lookup label = some l ∧ (l.org + l.base) % 2 = 0 ∧
      decode16 (ofBytes false (window s4.bytes s.bytes.length 2)) = some ⟨op, [.dist (thReach op + 2) off]⟩ ∧
      s.pc + 4 + off = l.org + l.base - s.pc % 2 := by
  obtain ⟨h1, h2⟩ := C47_gba_check s3 s4 hfix
  refine ⟨h1, ?_⟩
  rw [window_outside h2 (by omega)]
  exact C62_reaches s s2 s3 op hop t label ht hpc hne hhash hplain hnum hprog hlink

/-- C76: in a Genesis image with its checksum in place, an instruction is the one written, with the addresses of its labels. -/
theorem C76_genesis {s s1 s2 s3 : St} {t : Str} {rest : List Str} {blob : Bytes} {rels : List Reloc} (hpc : 0 ≤ s.pc)
    (hprog : InProgram mc68000 s t rest s1) (hem : Emits mc68000 (ctxOf mc68000 s) t rest blob rels)
    (hlink : LinksOwn mc68000 s1 s2 s.bytes.length blob.length rels)
    (hplain : ∀ r ∈ rels, r.label ≠ [] ∧ ∀ ch ∈ r.label, formulaChar ch = false) (ho : ¬ M68Odd (m68Linked s s1) t rest)
    (hfix : genesisFix s2 = (.ok (), s3)) (hsum : s.bytes.length + blob.length ≤ 0x18E ∨ 0x190 ≤ s.bytes.length) :
    GenesisCheck s3.bytes ∧ ∃ used extra i, rest = used ++ extra ∧ (extra ≠ [] → M68Open i) ∧ M68Written (m68Linked s s1) t used i ∧
      disasm68 (window s3.bytes s.bytes.length blob.length) = some i := by
  obtain ⟨h1, h2⟩ := C47_genesis_check s2 s3 hfix
  refine ⟨h1, ?_⟩
  rw [window_outside h2 (by omega)]
  exact C66_linked hpc hprog hem hlink hplain ho

theorem psx_window {code file : Bytes} (h : psxFile code = .ok file) {x n : Nat} (hx : x + n ≤ code.length) :
    window file (0x800 + x) n = window code x n := by
  obtain ⟨f, hf, hl⟩ := C48_layout code
  rw [h] at hf
  cases hf
  have hb := hl.body
  generalize 0x800 = k at hb ⊢
  rw [show window code x n = window (window file k code.length) x n by rw [hb]]
  apply List.ext_getElem?
  intro i
  simp only [window, List.getElem?_take, List.getElem?_drop]
  by_cases hi : i < n
  · rw [if_pos hi, if_pos hi, if_pos (by omega), Nat.add_assoc]
  · rw [if_neg hi, if_neg hi]

/-- C76: in a PlayStation executable a branch is behind the header, at its position in the code, and leads to its label. -/
theorem C76_psx (s s2 s3 : St) (file : Bytes) (t label : Str) (m : String) (rest : List Str) (i : Nat → MipsInstr)
    (hl : MipsBranchLine label m rest i) (ht : eqNoCase t m.toList) (hpc : 0 ≤ s.pc) (hc : MipsConst label)
    (hnum : parseInteger psx.sy s.labels label 18 true = .ok none) (hplain : ∀ ch ∈ label, formulaChar ch = false)
    (hprog : InProgram psx s t rest s2) (hlink : LinksAlone psx s2 s3 s.bytes.length (mipsBranchRef label s.pc))
    (l : LabelInfo) (hlk : s2.labels.lookup label = some l) (hal : (l.org + l.base - s.pc) % 4 = 0) (hfile : psxFile s3.bytes = .ok file) :
    ∃ off, decodeMips (ofBytes false (window file (0x800 + s.bytes.length) 4)) = some (i off) ∧
      s.pc + 4 + 4 * toSigned 16 off = l.org + l.base := by
  obtain ⟨w0, blob, hem, hlen, -⟩ := branch_word (be := false) (c := ctxOf (mipsOn false) s) hl ht hpc hc hnum
  have h2 := code_length (hprog.code hem) (by omega)
  have h3 := (C36_windows psx .dummy rfl s2 (fun e he => (hlink.ordinary e he).hook)).1
  rw [hlink.ok] at h3
  rw [psx_window hfile (by have : s3.bytes.length = s2.bytes.length := h3; omega)]
  exact C56_aligned false s s2 s3 t label m rest i hl ht hpc hc hnum hplain hprog hlink l hlk hal

/-! ## Examples

A Game Boy program with a title filled in after the code. -/

instance (r : Reloc) : Decidable (Ordinary r) :=
  decidable_of_iff (1 ≤ r.bitsSize ∧ r.alignment ≠ 0 ∧ r.hook = none) ⟨fun h => ⟨h.1, h.2.1, h.2.2⟩, fun h => ⟨h.1, h.2, h.3⟩⟩

theorem Spec.LinksClear.one {d : Dialect} {s s' : St} {a n p : Nat} (h : link d .dummy s = (.ok (), s'))
    (hr : s.relocs.map Prod.fst = [p]) (ho : ∀ e ∈ s.relocs, Ordinary e.2) : LinksClear d s s' a n p where
  ok := h
  ordinary := ho
  nodup := by rw [hr]; simp
  clear := fun f hf hne => absurd (List.mem_singleton.1 (hr ▸ List.mem_map_of_mem hf)) hne

def exGbBefore : St := (assemble (gameboyOn lr35902) {} 3 ".fill 256\n.cartridge\nloop: NOP\n".toList {}).2
def exGbJr : St := (execInstr (gameboyOn lr35902) 1 none ⟨.instr, ["JR", "NZ", "loop"].map String.toList, 4⟩ exGbBefore).2
def exGbTitle : St := (execStmts (gameboyOn lr35902) {} 3 (assemble (gameboyOn lr35902) {} 3)
  [⟨.directive, [".cartridge_title", "\"HELLO\""].map String.toList, 5⟩, ⟨.instr, ["NOP".toList], 6⟩] exGbJr).2

theorem exGbTitle_program : InProgram (gameboyOn lr35902) exGbBefore "JR".toList ["NZ".toList, "loop".toList] exGbTitle :=
  C76_gameboy_stays lr35902 {} 3 3 _ (depth := 0) (tokens := ["JR", "NZ", "loop"].map String.toList) (by decide +kernel) (by decide +kernel) (by decide +kernel)
    (by decide +kernel) (pair_ok (by decide +kernel))

theorem exGbTitle_links : LinksClear (gameboyOn lr35902) exGbTitle (link (gameboyOn lr35902) .dummy exGbTitle).2 exGbBefore.bytes.length 2
    (exGbBefore.bytes.length + 1) :=
  .one (pair_ok (by decide +kernel)) (by decide +kernel) (by decide +kernel)

theorem exGbJr_emits : Emits (gameboyOn lr35902) (ctxOf (gameboyOn lr35902) exGbBefore) "JR".toList ["NZ".toList, "loop".toList] [0x20, 0]
    [gbRef .r8 "loop".toList exGbBefore.pc] :=
  .handler rfl (Prod.ext (by decide +kernel) rfl)

/-- The image made of the program and what the theorem says of it. -/
example : BootCheck (link (gameboyOn lr35902) .dummy exGbTitle).2.bytes ∧ ∃ l i, exGbTitle.labels.lookup "loop".toList = some l ∧
    decodeGb (window (link (gameboyOn lr35902) .dummy exGbTitle).2.bytes exGbBefore.bytes.length 2) = some i ∧
    GbWritten (fun tok x => tok = "loop".toList ∧ x = i.value) "JR".toList ["NZ".toList, "loop".toList] i ∧
    i.value = gbReference i.args exGbBefore.pc (l.org + l.base) := by
  have h := C76_gameboy exGbBefore exGbTitle _ _ _ _ _ (by decide +kernel) exGbJr_emits (gbOdd_test (by decide +kernel)) (by decide) exGbTitle_program
    exGbTitle_links (by decide +kernel)
  exact h

/-- The `NOP` of the same program, two bytes further on. -/
def exGbNop : St := (execStmts (gameboyOn lr35902) {} 3 (assemble (gameboyOn lr35902) {} 3) []
  (execInstr (gameboyOn lr35902) 1 none ⟨.instr, ["NOP".toList], 6⟩ exGbJr).2).2

theorem exGbNop_program : InProgram (gameboyOn lr35902) exGbJr "NOP".toList [] exGbNop :=
  C76_gameboy_stays lr35902 {} 3 3 _ (depth := 0) (tokens := ["NOP".toList]) (by decide +kernel) (by decide +kernel) (by decide +kernel)
      (by decide +kernel) (pair_ok (by decide +kernel))

theorem exGbNop_emits (c : Ctx) : Emits (gameboyOn lr35902) c "NOP".toList [] [0] [] := .fixed rfl rfl

theorem exGbNop_links : LinksOwn (gameboyOn lr35902) exGbNop (link (gameboyOn lr35902) .dummy exGbNop).2 exGbJr.bytes.length 1 [] where
  ok := pair_ok (by decide +kernel)
  ordinary := by decide +kernel
  nodup := by decide +kernel
  own := by
    have hcov : ∀ f ∈ exGbNop.relocs, f.1 + f.2.size ≤ exGbJr.bytes.length := by decide +kernel
    intro f hf j h1 _ hc
    have := hcov f hf
    have : f.1 ≤ j ∧ j < f.1 + f.2.size := hc
    omega

example : BootCheck (link (gameboyOn lr35902) .dummy exGbNop).2.bytes ∧ ∃ i,
    decodeGb (window (link (gameboyOn lr35902) .dummy exGbNop).2.bytes exGbJr.bytes.length 1) = some i ∧
    GbWritten (OperandValue (ctxOf lr35902 exGbJr) []) "NOP".toList [] i := by
  have h := C76_gameboy_plain exGbJr exGbNop _ _ _ [0] (exGbNop_emits _) (gbOdd_test (by decide +kernel)) exGbNop_program exGbNop_links (by decide +kernel)
  exact h

/-- The address of the label does not fit in a byte. -/
def exGbByte : St := (execStmts (gameboyOn lr35902) {} 3 (assemble (gameboyOn lr35902) {} 3) []
  (execInstr (gameboyOn lr35902) 1 none ⟨.instr, ["LD", "B", "loop"].map String.toList, 4⟩ exGbBefore).2).2

theorem exGbByte_program : InProgram (gameboyOn lr35902) exGbBefore "LD".toList [['B'], "loop".toList] exGbByte :=
  C76_gameboy_stays lr35902 {} 3 3 _ (depth := 0) (tokens := ["LD", "B", "loop"].map String.toList) (by decide +kernel) (by decide +kernel) (by decide +kernel)
      (by decide +kernel) (pair_ok (by decide +kernel))

theorem exGbByte_label : exGbByte.labels.lookup "loop".toList = some ⟨0x50, 0x100, none⟩ := by decide +kernel

example : (link (gameboyOn lr35902) .dummy exGbByte).1 ≠ .ok () :=
  C76_gameboy_rejected exGbBefore exGbByte "LD".toList [['B'], "loop".toList] [0x06, 0] (gbRef .d8 "loop".toList exGbBefore.pc) ⟨"LD", [.reg "B", .imm8], 0⟩
    _ (by decide +kernel) (.handler rfl (Prod.ext (by decide +kernel) rfl))
    (gbOdd_test (by decide +kernel)) (by decide) exGbByte_program (by decide +kernel) exGbByte_label (by decide +kernel)
    (by show ¬ ((0 : Int) ≤ 0x150 ∧ (0x150 : Int) < 256); decide)

/-- A NES program whose header is completed after the code. -/
def exNesBefore : St := (assemble nes {} 3 ".cartridge\n.org $8000\nloop: NOP\n".toList {}).2
def exNesBranch : St := (execInstr nes 1 none ⟨.instr, ["BNE", "loop"].map String.toList, 3⟩ exNesBefore).2
def exNesRoms : St := (execStmts nes {} 3 (assemble nes {} 3) [⟨.directive, [".cartridge_prg_roms", "1"].map String.toList, 4⟩] exNesBranch).2

theorem exNes_links : LinksAlone nes exNesRoms (link nes .dummy exNesRoms).2 (exNesBefore.bytes.length + 1) (branchRef "loop".toList exNesBefore.pc) where
  ok := pair_ok (by decide +kernel)
  ordinary := by decide +kernel
  nodup := by decide +kernel
  apart := by
    have : ∀ f ∈ exNesRoms.relocs, f.1 = exNesBefore.bytes.length + 1 := by decide +kernel
    exact fun f hf hne => absurd (this f hf) hne

example : ∃ l disp, exNesRoms.labels.lookup "loop".toList = some l ∧
    (link nes .dummy exNesRoms).2.bytes[exNesBefore.bytes.length + 1]? = some disp ∧ exNesBefore.pc + 2 + disp.toInt = l.org + l.base :=
  C76_nes exNesBefore exNesRoms _ "BNE".toList "loop".toList [] 0xD0 "BNE" (by decide) (by decide +kernel) (by decide) (by decide +kernel) (by decide +kernel) (by decide)
    (C76_nes_stays {} 3 3 _ (depth := 0) (tokens := ["BNE", "loop"].map String.toList) (ln := 3) (by decide +kernel) (by decide +kernel) (by decide +kernel)
      (by decide +kernel) (pair_ok (by decide +kernel)))
    exNes_links

/-- A Master System program. -/
example : ∃ i, decodeZ80 (window (link (smsOn z80) .dummy exZ80Jr).2.bytes 1 2) = some i ∧
    Z80Written (z80Linked exZ80Loop exZ80Jr) "jr".toList ["nz".toList, "again".toList] i := by
  have he : Emits (smsOn z80) (ctxOf (smsOn z80) exZ80Loop) "jr".toList ["nz".toList, "again".toList] _ _ := (same_sms z80).symm.emits exZ80Jr_emits
  have h := C76_sms (s := exZ80Loop) (s1 := exZ80Jr) (by decide) ((same_sms z80).symm.program (.last rfl (by decide +kernel) rfl exZ80Jr_emits)) he (by simp)
    (not_odd80 (by decide +kernel)) (by intro r hr; cases List.mem_singleton.1 hr; exact ⟨by decide, by decide⟩)
    (by intro r hr; cases List.mem_singleton.1 hr; exact .single (pair_ok (by decide +kernel)) rfl ⟨by decide, by decide, rfl⟩)
  exact h

/-- A Thumb branch behind the header of a Game Boy Advance cartridge. -/
def exGbaRom : St := { exThumb with bytes := List.replicate 0xC0 0 }
def exGbaB : St := emitted exGbaRom [0, 0xD1] [thOffsetRef 7 "loop".toList 0x102]

set_option maxRecDepth 10000 in
example : GbaCheck (gbaFix (link thumb .dummy exGbaB).2).2.bytes ∧ ∃ l off, exGbaB.labels.lookup "loop".toList = some l ∧ (l.org + l.base) % 2 = 0 ∧
    decode16 (ofBytes false (window (gbaFix (link thumb .dummy exGbaB).2).2.bytes exGbaRom.bytes.length 2)) = some ⟨.BNE, [.dist 9 off]⟩ ∧
    0x102 + 4 + off = l.org + l.base - 0x102 % 2 :=
  C76_gba exGbaRom exGbaB _ _ .BNE (by decide) "bne".toList "loop".toList rfl (by decide) (by decide) (by decide) (by decide) (by decide +kernel)
    (.last rfl (by decide +kernel) rfl (.handler rfl (Prod.ext (by decide +kernel) rfl)))
    (.single (pair_ok (by decide +kernel)) rfl ⟨by decide, by decide, rfl⟩) (pair_ok (by decide +kernel)) (by decide +kernel)

/-- `move.l #table, loop` in a Genesis image. -/
def exGenesisRom : St := { exM68St with bytes := List.replicate 0x200 0 }
def exGenesisMove : St := emitted exGenesisRom (window exM68Move.bytes 2 10) exM68Rels

theorem exGenesis_emits : Emits mc68000 (ctxOf mc68000 exGenesisRom) "move.l".toList ["#table".toList, "loop".toList] (window exM68Move.bytes 2 10) exM68Rels :=
  .handler rfl (Prod.ext (by decide +kernel) rfl)

set_option maxRecDepth 20000 in
theorem exGenesis_links : LinksOwn mc68000 exGenesisMove (link mc68000 .dummy exGenesisMove).2 0x200 10 exM68Rels :=
  .only (pair_ok (by decide +kernel)) rfl (fun r hr => (exM68_ordinary r hr).1) (by decide +kernel)

set_option maxRecDepth 20000 in
example : GenesisCheck (genesisFix (link mc68000 .dummy exGenesisMove).2).2.bytes ∧ ∃ used extra i, ["#table".toList, "loop".toList] = used ++ extra ∧
    (extra ≠ [] → M68Open i) ∧ M68Written (m68Linked exGenesisRom exGenesisMove) "move.l".toList used i ∧
    disasm68 (window (genesisFix (link mc68000 .dummy exGenesisMove).2).2.bytes 0x200 10) = some i := by
  have h := C76_genesis (s := exGenesisRom) (by decide) (.last rfl (by decide +kernel) rfl exGenesis_emits) exGenesis_emits exGenesis_links
    (fun r hr => (exM68_ordinary r hr).2) (not_odd_of_test (by decide +kernel)) (pair_ok (by decide +kernel)) (by decide +kernel)
  exact h

/-- A branch in a PlayStation executable. -/
def exPsxBranch : St := emitted exMips [0, 0, 0xA9, 0x10] [mipsBranchRef "loop".toList 0x2344]

example (file : Bytes) (h : psxFile (link psx .dummy exPsxBranch).2.bytes = .ok file) :
    ∃ off, decodeMips (ofBytes false (window file (0x800 + 4) 4)) = some (.branch "beq" 5 9 off) ∧ 0x2344 + 4 + 4 * toSigned 16 off = 0 + 0x2340 :=
  C76_psx exMips exPsxBranch _ file "beq".toList "loop".toList "beq" _ _ (.two (.inl rfl) reg5 reg9) rfl (by decide) ⟨by decide, by decide⟩
    (by decide +kernel) (by decide)
    (.last rfl (by decide +kernel) rfl ((mips_emits (m := "beq") (form := .branch) (n := 4) (be := false) (by decide +kernel) rfl).2 (Prod.ext (by decide +kernel) rfl)))
    (.single (pair_ok (by decide +kernel)) rfl ⟨by decide, by decide, rfl⟩) _ rfl (by decide) h

end Necro
