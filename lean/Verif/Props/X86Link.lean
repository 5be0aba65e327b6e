import Verif.Props.X86
import Verif.Props.Intel8086Link
/-!
# C80, C81: where jumps to labels lead in linked x86 programs, and labels as data
-/

namespace Necro
open Spec

/-- The registers of the assembler, which cannot be labels. -/
def x86Words : List String :=
  ["AL", "CL", "DL", "BL", "AH", "CH", "DH", "BH", "AX", "CX", "DX", "BX", "SP", "BP", "SI", "DI", "EAX", "ECX", "EDX", "EBX", "ESP", "EBP", "ESI", "EDI",
   "RAX", "RCX", "RDX", "RBX", "RSP", "RBP", "RSI", "RDI", "CR0", "CR1", "CR2", "CR3", "CR4", "CR5", "CR6", "CR7", "ES", "CS", "SS", "DS", "[", "]"]

theorem x86Words_all : ∀ n ∈ x86AllRegs ++ [['['], [']']], ∃ w ∈ x86Words, w.toList = n := by decide +kernel

theorem x86Words_upper : ∀ w ∈ x86Words, upper w.toList = w.toList := by decide +kernel

theorem x86Words_not {label : Str} (h : ∀ w ∈ x86Words, ¬ eqNoCase label w.toList) : upper label ∉ x86AllRegs ++ [['['], [']']] := by
  intro hm
  obtain ⟨w, hw, e⟩ := x86Words_all _ hm
  refine h w hw ?_
  show upper label = upper w.toList
  rw [x86Words_upper w hw, e]

theorem x86Jumps_kept : ∀ op ∈ x86Ops, ((x86Map op).all fun p => !(decide (p.2 = [.jz])) || p.1.all fun n => !(x86Lost.contains n)) = true := by decide +kernel

/-- The reference of a jump. -/
def x86Ref (mode : Nat) (pc : Int) (op : Nat) (label : Str) : Reloc :=
  { label := label, size := 2, bitsSize := 16, offset := (x86Split op).length, relative := pc + (x86Split op).length + ((x86Default mode / 8 : Nat) : Int) }

/-- The code of a jump before linking. -/
def x86JumpBlob (mode op : Nat) : Bytes := (x86Split op).map (fun n => BitVec.ofNat 8 n) ++ List.replicate (x86Default mode / 8) 0

variable {mode op : Nat} {names : List String} {name : String} {t label : Str} {c : Ctx}

theorem zero16 : packLe16u [some 0] = .ok [0, 0] := by decide +kernel
theorem zero32 : packLe32u [some 0] = .ok [0, 0, 0, 0] := by decide +kernel

theorem args_last_rels {a : X86Arg} {tokens : List Str} {base base' : List Nat} {index delta : Nat} {m m' : X86Modrm} {blob b : Bytes} {c : Ctx} {rels : List Reloc}
    (h1 : a.run tokens base index m c = (.ok (some (delta, base', b), m'), rels)) : x86Args tokens [a] base index m blob c = (.ok (some (base', blob ++ b)), rels) := by
  unfold x86Args
  refine (H.bind_of h1 (r' := []) (show _ = _ from rfl)).trans ?_
  rw [List.append_nil]

theorem jump_label (hpc : 0 ≤ c.pc) (hmode : x86Mode c = mode) (hm : mode = 16 ∨ mode = 32 ∨ mode = 64)
    (hw : upper label ∉ x86AllRegs ++ [['['], [']']]) (hnum : parseInteger c.sy c.labels label 16 true = .ok none) :
    x86Args [t, label] [.jvds] (x86Split op) 1 {} [] c = (.ok (some (x86Split op, List.replicate (x86Default mode / 8) 0)), [x86Ref mode c.pc op label]) := by
  refine args_last_rels (m' := {}) (delta := 1) ?_
  simp only [X86Arg.run]
  have hp : ∀ r : Reloc, r.label = label → r.bitsSize = 16 → 0 < r.relative → H.parseIntegerOrLabel r false c = (.ok 0, [r]) := by
    intro r h1 h2 h3
    unfold H.parseIntegerOrLabel
    have : (false || r.relative != 0) = true := by simp; omega
    rw [h1, h2, this, hnum]
  rw [H.bind_run (token_run (show [t, label].drop 1 = label :: [] from rfl) c), H.bind_run (H.read_apply c), if_neg hw]
  by_cases h16 : mode = 16
  · have hd : x86Default mode = 16 := by simp [x86Default, h16]
    rw [if_pos (by rw [hmode, h16])]
    have h0 := hp { label := label, size := 2, bitsSize := 16, offset := (x86Split op).length, relative := c.pc + (x86Split op).length + 2 } rfl rfl (by simp only; omega)
    refine (H.bind_of h0 (r' := []) (x := .ok (some (1, x86Split op, [0, 0]), {})) ?_).trans ?_
    · rw [zero16]; rfl
    · unfold x86Ref
      rw [hd]
      rfl
  · have hd : x86Default mode = 32 := by simp [x86Default, h16]
    rw [if_neg (by rw [hmode]; exact h16), if_pos (by rw [hmode]; omega)]
    have h0 := hp { label := label, size := 2, bitsSize := 16, offset := (x86Split op).length, relative := c.pc + (x86Split op).length + 4 } rfl rfl (by simp only; omega)
    refine (H.bind_of h0 (r' := []) (x := .ok (some (1, x86Split op, [0, 0, 0, 0]), {})) ?_).trans ?_
    · rw [zero32]; rfl
    · unfold x86Ref
      rw [hd]
      rfl

/-- A jump to a name is assembled, with one reference. -/
theorem jump_emits (hpc : 0 ≤ c.pc) (hmode : x86Mode c = mode) (hm : mode = 16 ∨ mode = 32 ∨ mode = 64)
    (h : x86Main mode (x86Default mode) op = some (names, [.jz])) (hn : name ∈ names) (ht : eqNoCase t name.toList)
    (hw : ∀ w ∈ x86Words, ¬ eqNoCase label w.toList) (hnum : parseInteger c.sy c.labels label 16 true = .ok none) :
    Emits x86 c t [label] (x86JumpBlob mode op) [x86Ref mode c.pc op label] := by
  obtain ⟨hmap, -⟩ := x86Main_some.1 h
  have hl : name ∉ x86Lost := by
    have := x86Jumps_kept op (x86Map_mem hmap)
    rw [hmap] at this
    simp only [Option.all_some, decide_true, Bool.not_true, Bool.false_or, List.all_eq_true, Bool.not_eq_true', List.contains_eq_mem, decide_eq_false_iff_not] at this
    exact this name hn
  have hs : x86Default mode = 16 ∨ x86Default mode = 32 := by unfold x86Default; split <;> simp
  obtain ⟨p, hp, rfl, hserve⟩ := x86Check_rows hmap hn hl hs
  unfold x86Serves at hserve
  simp only at hserve
  obtain ⟨b, a, hpick, hb⟩ := pickIs_some hserve
  simp only [Bool.and_eq_true, beq_iff_eq] at hb
  obtain ⟨rfl, rfl⟩ := hb
  have hw' := x86Words_not hw
  refine .handler (x86_instr (List.mem_append_left _ hp) ht ?_) (pick_run hpick (.one (.num hw')) (jump_label hpc hmode hm hw' hnum))
  intro e
  rw [e] at hpick
  cases hpick

variable {s s1 s2 : St}

theorem jump_recorded (hpc : 0 ≤ s.pc) (hmode : x86Mode (ctxOf x86 s) = mode) (hm : mode = 16 ∨ mode = 32 ∨ mode = 64)
    (h : x86Main mode (x86Default mode) op = some (names, [.jz])) (hn : name ∈ names) (ht : eqNoCase t name.toList)
    (hw : ∀ w ∈ x86Words, ¬ eqNoCase label w.toList) (hnum : parseInteger x86.sy s.labels label 16 true = .ok none) (hprog : InProgram x86 s t [label] s1) :
    Recorded s1 s.bytes.length (x86JumpBlob mode op) (x86Ref mode s.pc op label) := by
  refine hprog.recordedLast (stale := []) (jump_emits (c := ctxOf x86 s) hpc hmode hm h hn ht hw hnum) ?_ (by show 0 < 2; decide)
  show (x86Split op).length + 2 ≤ _
  unfold x86JumpBlob x86Default
  split <;> simp

/-- What the linked reference of a jump is for the processor. -/
theorem jump_linked (hpc : 0 ≤ s.pc) (hmode : x86Mode (ctxOf x86 s) = mode) (hm : mode = 16 ∨ mode = 32 ∨ mode = 64)
    (h : x86Main mode (x86Default mode) op = some (names, [.jz])) (hn : name ∈ names) (ht : eqNoCase t name.toList)
    (hw : ∀ w ∈ x86Words, ¬ eqNoCase label w.toList) (hnum : parseInteger x86.sy s.labels label 16 true = .ok none)
    (hne : label ≠ []) (hplain : ∀ ch ∈ label, formulaChar ch = false) (hprog : InProgram x86 s t [label] s1) {n : Nat} (hlen : (x86JumpBlob mode op).length = n)
    (hlink : LinksClear x86 s1 s2 s.bytes.length n (s.bytes.length + (x86Split op).length)) :
    ∃ l d, s1.labels.lookup label = some l ∧ disasmX86 mode (window s2.bytes s.bytes.length n) = some ⟨names, [.rel d]⟩ ∧
      -(2 ^ 15) ≤ l.org + l.base - (s.pc + n) ∧ l.org + l.base - (s.pc + n) < 2 ^ 15 ∧
      d = if mode = 16 then l.org + l.base - (s.pc + n) else (l.org + l.base - (s.pc + n)) % 2 ^ 16 := by
  have hR := jump_recorded hpc hmode hm h hn ht hw hnum hprog
  have hs : x86Default mode = 16 ∨ x86Default mode = 32 := by unfold x86Default; split <;> simp
  have hcut : (x86Split op).map (fun n => BitVec.ofNat 8 n) = (x86JumpBlob mode op).take (x86Split op).length := by
    unfold x86JumpBlob
    rw [List.take_append_of_le_length (by simp), List.take_of_length_le (by simp)]
  have hzeros : (x86JumpBlob mode op).drop (x86Split op).length = List.replicate (x86Default mode / 8) 0 := by
    unfold x86JumpBlob
    rw [List.drop_append_of_le_length (by simp), List.drop_of_length_le (by simp)]
    rfl
  have hn' : n = (x86Split op).length + x86Default mode / 8 := by rw [← hlen]; simp [x86JumpBlob]
  obtain ⟨l, hl, hrg, -, -, hwin⟩ := linked_instr rfl (hlen ▸ hlink) hR rfl (by
      show ofBytes false (window _ (x86Split op).length 2) = 0
      unfold window
      rw [hzeros]
      rcases hs with e | e <;> rw [e] <;> decide) hne hplain
  have hrel : l.org + l.base - (x86Ref mode s.pc op label).relative = l.org + l.base - (s.pc + n) := by
    rw [hn']
    simp only [x86Ref]
    omega
  rw [hrel, hlen] at hwin
  rw [hrel] at hrg
  have hrange : -(2 ^ 15) ≤ l.org + l.base - (s.pc + n) ∧ l.org + l.base - (s.pc + n) < 2 ^ 15 := by
    unfold RefRange at hrg
    rw [if_pos (by simp only [x86Ref]; omega)] at hrg
    exact hrg
  generalize hv : l.org + l.base - (s.pc + n) = v at *
  refine ⟨l, _, hl, ?_, by rw [hv]; exact hrange.1, by rw [hv]; exact hrange.2, rfl⟩
  rw [hv]
  have hword := ofBytes_wordBytes false 2 v
  have hbytes : window s2.bytes s.bytes.length n = (x86Split op).map (fun n => BitVec.ofNat 8 n) ++ (wordBytes false 2 v ++ List.replicate (x86Default mode / 8 - 2) 0) := by
    rw [hwin]
    show List.take (x86Split op).length _ ++ wordBytes false 2 v ++ List.drop ((x86Split op).length + 2) _ = _
    rw [← hcut, ← List.drop_drop, hzeros, List.append_assoc, List.drop_replicate]
  rw [hbytes]
  have hpre := pre_default (x86Split op) hm rfl
  have hwl := wordBytes_length false 2 v
  have hle : ∀ b : Bytes, ofBytes false b = ofLE b := fun _ => rfl
  rw [hle] at hword
  have := disasm_bare (tail := wordBytes false 2 v ++ List.replicate (x86Default mode / 8 - 2) 0) (os := [.rel (if mode = 16 then v else v % 2 ^ 16)]) hm hs h rfl (by
    have : x86Operand mode (x86Default mode) none .jz (wordBytes false 2 v ++ List.replicate (x86Default mode / 8 - 2) 0) =
        some (.rel (if mode = 16 then v else v % 2 ^ 16), []) := by
      by_cases h16 : mode = 16
      · have hd : x86Default mode = 16 := by simp [x86Default, h16]
        rw [hd, if_pos h16]
        refine rel_decode mode (.inl rfl) (by simp [hwl]) (x := v) ?_ hrange.1 hrange.2 rfl
        simpa using hword
      · have hd : x86Default mode = 32 := by simp [x86Default, h16]
        rw [hd, if_neg h16]
        refine rel_decode mode (.inr rfl) (by simp [hwl]) (x := v % 2 ^ 16) ?_ (by omega) (by omega) rfl
        have e : ofLE (wordBytes false 2 v ++ List.replicate (32 / 8 - 2) 0) = ofLE (wordBytes false 2 v) := by
          match wordBytes false 2 v, hwl with
          | [p, q], _ => simp [ofLE]
        rw [e, hword]
        omega
    simp only [x86Operands, this]
    rfl)
  rw [hpre] at this
  exact this

/-- At state `s` stands the line `t label`, a jump or call of the opcode map, with its distance of the default size, to something that can be a label. -/
structure X86Jump (s : St) (mode op : Nat) (names : List String) (t label : Str) : Prop where
  pc : 0 ≤ s.pc
  inMode : x86Mode (ctxOf x86 s) = mode
  modes : mode = 16 ∨ mode = 32 ∨ mode = 64
  map : x86Main mode (x86Default mode) op = some (names, [.jz])
  name : ∃ n ∈ names, eqNoCase t n.toList
  noreg : ∀ w ∈ x86Words, ¬ eqNoCase label w.toList
  nonumber : parseInteger x86.sy s.labels label 16 true = .ok none
  nonempty : label ≠ []
  plain : ∀ ch ∈ label, formulaChar ch = false

/-- The bytes of the opcode, and those of the whole jump. -/
def x86OpLength (op : Nat) : Nat := if op < 0x100 then 1 else 2
def x86JumpLength (mode op : Nat) : Nat := x86OpLength op + x86Default mode / 8

theorem split_length (op : Nat) : (x86Split op).length = x86OpLength op := by
  unfold x86Split x86OpLength
  split <;> split <;> first | rfl | omega

theorem jumpBlob_length (mode op : Nat) : (x86JumpBlob mode op).length = x86JumpLength mode op := by
  simp [x86JumpBlob, x86JumpLength, split_length]

/-- C80: a jump or call to a name not known to be a number is always assembled, whatever the mode. -/
theorem C80_code (h : X86Jump s mode op names t label) :
    ∃ blob r, Emits x86 (ctxOf x86 s) t [label] blob [r] ∧ blob.length = x86JumpLength mode op ∧ r.label = label := by
  obtain ⟨n, hn, ht⟩ := h.name
  exact ⟨_, _, jump_emits (c := ctxOf x86 s) h.pc h.inMode h.modes h.map hn ht h.noreg h.nonumber, jumpBlob_length _ _, rfl⟩

theorem jump_both (h : X86Jump s mode op names t label) (hprog : InProgram x86 s t [label] s1)
    (hlink : LinksClear x86 s1 s2 s.bytes.length (x86JumpLength mode op) (s.bytes.length + x86OpLength op)) :
    ∃ l d, s1.labels.lookup label = some l ∧ disasmX86 mode (window s2.bytes s.bytes.length (x86JumpLength mode op)) = some ⟨names, [.rel d]⟩ ∧
      -(2 ^ 15) ≤ l.org + l.base - (s.pc + x86JumpLength mode op) ∧ l.org + l.base - (s.pc + x86JumpLength mode op) < 2 ^ 15 ∧
      d = if mode = 16 then l.org + l.base - (s.pc + x86JumpLength mode op) else (l.org + l.base - (s.pc + x86JumpLength mode op)) % 2 ^ 16 := by
  obtain ⟨n, hn, ht⟩ := h.name
  exact jump_linked h.pc h.inMode h.modes h.map hn ht h.noreg h.nonumber h.nonempty h.plain hprog (jumpBlob_length _ _) (by rw [split_length]; exact hlink)

/-- C80: in a linked program a jump or call to a label is for the processor one to the address of the label, in 16-bit mode always, in the
others if the label is not before the next instruction. -/
theorem C80_reaches (h : X86Jump s mode op names t label) (hprog : InProgram x86 s t [label] s1)
    (hlink : LinksClear x86 s1 s2 s.bytes.length (x86JumpLength mode op) (s.bytes.length + x86OpLength op)) {l : LabelInfo} (hl : s1.labels.lookup label = some l)
    (hforward : mode = 16 ∨ s.pc + x86JumpLength mode op ≤ l.org + l.base) :
    ∃ d, disasmX86 mode (window s2.bytes s.bytes.length (x86JumpLength mode op)) = some ⟨names, [.rel d]⟩ ∧
      s.pc + x86JumpLength mode op + d = l.org + l.base := by
  obtain ⟨l', d, h1, h2, h3, h4, h5⟩ := jump_both h hprog hlink
  rw [hl] at h1
  cases h1
  refine ⟨d, h2, ?_⟩
  rw [h5]
  split
  · omega
  · rw [Int.emod_eq_of_lt (by omega) (by omega)]
    omega

/-- C80, what does not hold: in 32- and 64-bit mode every linked jump back leads 65536 bytes beyond its label. -/
theorem C80_backward (h : X86Jump s mode op names t label) (hprog : InProgram x86 s t [label] s1)
    (hlink : LinksClear x86 s1 s2 s.bytes.length (x86JumpLength mode op) (s.bytes.length + x86OpLength op)) {l : LabelInfo} (hl : s1.labels.lookup label = some l)
    (hmode : mode ≠ 16) (hback : l.org + l.base < s.pc + x86JumpLength mode op) :
    ∃ d, disasmX86 mode (window s2.bytes s.bytes.length (x86JumpLength mode op)) = some ⟨names, [.rel d]⟩ ∧
      s.pc + x86JumpLength mode op + d = l.org + l.base + 65536 := by
  obtain ⟨l', d, h1, h2, h3, h4, h5⟩ := jump_both h hprog hlink
  rw [hl] at h1
  cases h1
  refine ⟨d, h2, ?_⟩
  rw [h5, if_neg hmode]
  omega

theorem jump_range (h : X86Jump s mode op names t label) {l : LabelInfo} :
    RefRange (x86Ref mode s.pc op label) (l.org + l.base - (x86Ref mode s.pc op label).relative) ↔
      -(2 ^ 15) ≤ l.org + l.base - (s.pc + x86JumpLength mode op) ∧ l.org + l.base - (s.pc + x86JumpLength mode op) < 2 ^ 15 := by
  have hpc := h.pc
  have hpos : 0 < x86OpLength op := by unfold x86OpLength; split <;> decide
  have hrel : (x86Ref mode s.pc op label).relative = s.pc + x86JumpLength mode op := by
    simp only [x86Ref, x86JumpLength, split_length]
    omega
  unfold RefRange
  rw [hrel, if_pos (by unfold x86JumpLength; omega)]
  rfl

/-- C80: a jump or call to a label more than 32 K away is not linked, in any mode. -/
theorem C80_rejected (h : X86Jump s mode op names t label) (hprog : InProgram x86 s t [label] s1) (hord : ∀ e ∈ s1.relocs, Ordinary e.2)
    {l : LabelInfo} (hl : s1.labels.lookup label = some l)
    (hfar : l.org + l.base - (s.pc + x86JumpLength mode op) < -(2 ^ 15) ∨ 2 ^ 15 ≤ l.org + l.base - (s.pc + x86JumpLength mode op)) :
    (link x86 .dummy s1).1 ≠ .ok () := by
  obtain ⟨n, hn, ht⟩ := h.name
  refine plain_rejected rfl hord (jump_recorded h.pc h.inMode h.modes h.map hn ht h.noreg h.nonumber hprog) h.nonempty h.plain hl fun hrg => ?_
  have := (jump_range h).1 hrg
  omega

/-- C80: one to a nearer label is linked, if nothing is wrong with the other references. -/
theorem C80_accepted (h : X86Jump s mode op names t label) (hprog : InProgram x86 s t [label] s1) (hord : ∀ e ∈ s1.relocs, Ordinary e.2)
    {l : LabelInfo} (hl : s1.labels.lookup label = some l)
    (hnear : -(2 ^ 15) ≤ l.org + l.base - (s.pc + x86JumpLength mode op) ∧ l.org + l.base - (s.pc + x86JumpLength mode op) < 2 ^ 15)
    (hothers : ∀ e ∈ s1.relocs, e.1 ≠ s.bytes.length + x86OpLength op → ∀ x, ¬ Fault (labelRelative x86.sy s1.labels) s1.bytes.length e x)
    (hnodup : (s1.relocs.map Prod.fst).Nodup) : (link x86 .dummy s1).1 = .ok () := by
  obtain ⟨n, hn, ht⟩ := h.name
  have hR := jump_recorded h.pc h.inMode h.modes h.map hn ht h.noreg h.nonumber hprog
  have hoff : (x86Ref mode s.pc op label).offset = x86OpLength op := split_length op
  rw [C38_success x86 rfl s1 hord]
  intro e he x
  by_cases hee : e.1 = s.bytes.length + x86OpLength op
  · obtain ⟨k, r⟩ := e
    have hee : k = s.bytes.length + x86OpLength op := hee
    subst hee
    have hk := lookup_member hnodup he
    have he' := hR.entry
    rw [hoff, hk] at he'
    cases he'
    have := plain_fault (d := x86) hR h.nonempty h.plain hl (Int.emod_one _) (fun e => by
      have hpc := h.pc
      have hpos : 0 < x86OpLength op := by unfold x86OpLength; split <;> decide
      simp only [x86Ref, split_length] at e
      omega) ((jump_range h).2 hnear) (by intro hi lo hb; cases hb) x
    rw [hoff] at this
    exact this
  · exact hothers e he hee x

/-! ## Labels as data -/

/-- The reference of an immediate. -/
def x86DataRef (size offset : Nat) (label : Str) : Reloc := { label := label, size := size / 8, bitsSize := size, offset := offset }

variable {size n : Nat} {t1 : Str}

theorem imm_label {sizes : List Nat} {base : List Nat} {m : X86Modrm} (hm : m.bits = some size) (hs : size ∈ sizes) (h16 : size = 16 ∨ size = 32)
    (hw : upper label ∉ x86AllRegs ++ [['['], [']']]) (hnum : parseInteger c.sy c.labels label size false = .ok none) :
    x86Imm sizes label base m c = (.ok (some (1, base, List.replicate (size / 8) 0), m), [x86DataRef size base.length label]) := by
  have h0 : H.parseIntegerOrLabel { label := label, size := size / 8, bitsSize := size, offset := base.length } false c =
      (.ok 0, [x86DataRef size base.length label]) := by
    unfold H.parseIntegerOrLabel
    simp only [bne_self_eq_false, Bool.or_self, hnum]
    rfl
  unfold x86Imm
  rw [if_neg hw, hm]
  simp only
  rw [if_pos hs]
  refine (H.bind_of h0 (r' := []) (x := .ok (some (1, base, List.replicate (size / 8) 0), m)) ?_).trans (by rw [List.append_nil])
  rcases h16 with rfl | rfl
  · rw [if_pos rfl, zero16]; rfl
  · rw [if_neg (by decide), if_pos rfl, zero32]; rfl

theorem rax_label (h16 : size = 16 ∨ size = 32) (h1 : X86Reg size 0 t1) {base : List Nat}
    (hw : upper label ∉ x86AllRegs ++ [['['], [']']]) (hnum : parseInteger c.sy c.labels label size false = .ok none) :
    x86Args [t, t1, label] [.rax, .ivds] base 1 {} [] c = (.ok (some (x86Pre (x86Mode c) size base, List.replicate (size / 8) 0)),
      [x86DataRef size (x86Pre (x86Mode c) size base).length label]) := by
  have e1 : X86Arg.rax.run [t, t1, label] base 1 {} c = (.ok (some (1, x86Pre (x86Mode c) size base, []), { bits := some size }), []) := by
    simp only [X86Arg.run]
    rw [H.bind_run (token_run (show [t, t1, label].drop 1 = t1 :: [label] from rfl) c), H.bind_run (H.read_apply c)]
    rcases rax_reg h1 with ⟨rfl, e⟩ | ⟨rfl, e⟩ | ⟨rfl, e⟩
    · rw [if_pos e]
      simp [x86Pre]
    · rw [if_neg (by rw [e]; decide), if_pos e]
      simp [x86Pre]
    · simp at h16
  refine args_cons e1 (args_last_rels (delta := 1) (m' := { bits := some size }) ?_)
  simp only [X86Arg.run]
  rw [H.bind_run (token_run (show [t, t1, label].drop (1 + 1) = label :: [] from rfl) c)]
  exact imm_label rfl (by rcases h16 with rfl | rfl <;> decide) h16 hw hnum

theorem zv_label (h16 : size = 16 ∨ size = 32) {base : List Nat} (hb : base ≠ []) (h1 : X86Reg size n t1)
    (hw : upper label ∉ x86AllRegs ++ [['['], [']']]) (hnum : parseInteger c.sy c.labels label size false = .ok none) :
    x86Args [t, t1, label] [.zvqp, .ivqp] base 1 {} [] c = (.ok (some (x86Pre (x86Mode c) size (x86ApplyZ base n), List.replicate (size / 8) 0)),
      [x86DataRef size (x86Pre (x86Mode c) size (x86ApplyZ base n)).length label]) := by
  refine args_cons (zvqp_reg (us := [label]) hb h16 h1 rfl) (args_last_rels (delta := 1) (m' := { bits := some size }) ?_)
  simp only [X86Arg.run]
  rw [H.bind_run (token_run (show [t, t1, label].drop (1 + 1) = label :: [] from rfl) c)]
  exact imm_label rfl (by rcases h16 with rfl | rfl <;> decide) h16 hw hnum

/-- At state `s` stands the line `t t1, label`, an instruction of the opcode map with a register in the opcode and data, which is something that can be a label. -/
structure X86Data (s : St) (mode size op n : Nat) (names : List String) (t t1 label : Str) : Prop where
  inMode : x86Mode (ctxOf x86 s) = mode
  modes : mode = 16 ∨ mode = 32 ∨ mode = 64
  sizes : size = 16 ∨ size = 32
  map : x86Main mode size op = some (names, [.zv n, .iv])
  name : ∃ m ∈ names, m ∉ x86Lost ∧ eqNoCase t m.toList
  reg : I86Name (x86Names size) n t1
  noreg : ∀ w ∈ x86Words, ¬ eqNoCase label w.toList
  nonumber : parseInteger x86.sy s.labels label size false = .ok none
  nonempty : label ≠ []
  plain : ∀ ch ∈ label, formulaChar ch = false

/-- The bytes before the data: the opcode, and the prefix when the size is not that of the mode. -/
def x86DataOffset (mode size op : Nat) : Nat := (if size = x86Default mode then 0 else 1) + x86OpLength op
def x86DataLength (mode size op : Nat) : Nat := x86DataOffset mode size op + size / 8

def x86DataBlob (mode size op : Nat) : Bytes := (x86Pre mode size (x86Split op)).map (fun n => BitVec.ofNat 8 n) ++ List.replicate (size / 8) 0

theorem pre_length (hm : mode = 16 ∨ mode = 32 ∨ mode = 64) (hs : size = 16 ∨ size = 32) : (x86Pre mode size (x86Split op)).length = x86DataOffset mode size op := by
  rw [x86DataOffset, ← split_length]
  rcases hm with rfl | rfl | rfl <;> rcases hs with rfl | rfl <;> simp [x86Pre, x86Default, Nat.add_comm]

theorem data_emits (h : X86Data s mode size op n names t t1 label) :
    Emits x86 (ctxOf x86 s) t [t1, label] (x86DataBlob mode size op) [x86DataRef size (x86DataOffset mode size op) label] := by
  obtain ⟨m, hn, hl, ht⟩ := h.name
  obtain ⟨hmap, -⟩ := x86Main_some.1 h.map
  have hs3 : size = 16 ∨ size = 32 ∨ size = 64 := by rcases h.sizes with rfl | rfl <;> simp
  have r1 := x86_reg hs3 h.reg
  obtain ⟨p, hp, rfl, hserve⟩ := x86Check_rows hmap hn hl h.sizes
  unfold x86Serves at hserve
  simp only at hserve
  obtain ⟨b, a, hpick, hb⟩ := pickIs_some hserve
  simp only [Bool.or_eq_true, Bool.and_eq_true, beq_iff_eq] at hb
  have hw' := x86Words_not h.noreg
  have ho : X86Ops (.r size) (some .num) [t1, label] := .two (.reg r1) (.num hw')
  have hne : p.2.2 ≠ [] := by
    intro e
    rw [e] at hpick
    cases hpick
  rw [← pre_length h.modes h.sizes]
  unfold x86DataBlob
  rw [← h.inMode]
  rcases hb with ⟨⟨rfl, rfl⟩, rfl⟩ | ⟨rfl, hb⟩
  · exact .handler (x86_instr (List.mem_append_left _ hp) ht hne) (pick_run hpick ho (rax_label h.sizes r1 hw' h.nonumber))
  · rw [← hb]
    exact .handler (x86_instr (List.mem_append_left _ hp) ht hne) (pick_run hpick ho (zv_label h.sizes (by unfold x86Split; split <;> simp) r1 hw' h.nonumber))

theorem dataBlob_length (hm : mode = 16 ∨ mode = 32 ∨ mode = 64) (hs : size = 16 ∨ size = 32) : (x86DataBlob mode size op).length = x86DataLength mode size op := by
  simp [x86DataBlob, x86DataLength, pre_length hm hs]

/-- C81: such a line is always assembled. -/
theorem C81_code (h : X86Data s mode size op n names t t1 label) :
    ∃ blob r, Emits x86 (ctxOf x86 s) t [t1, label] blob [r] ∧ blob.length = x86DataLength mode size op ∧ r.label = label :=
  ⟨_, _, data_emits h, dataBlob_length h.modes h.sizes, rfl⟩

theorem data_recorded (h : X86Data s mode size op n names t t1 label) (hprog : InProgram x86 s t [t1, label] s1) :
    Recorded s1 s.bytes.length (x86DataBlob mode size op) (x86DataRef size (x86DataOffset mode size op) label) := by
  refine hprog.recordedLast (stale := []) (data_emits h) ?_ ?_
  · rw [dataBlob_length h.modes h.sizes]
    exact Nat.le_refl _
  · show 0 < size / 8
    rcases h.sizes with rfl | rfl <;> decide

/-- C81: in a linked program the line is for the processor the instruction written, with the address of the label as its data. -/
theorem C81_address (h : X86Data s mode size op n names t t1 label) (hprog : InProgram x86 s t [t1, label] s1)
    (hlink : LinksClear x86 s1 s2 s.bytes.length (x86DataLength mode size op) (s.bytes.length + x86DataOffset mode size op)) :
    ∃ (l : LabelInfo) (a : Nat), s1.labels.lookup label = some l ∧ (a : Int) = l.org + l.base ∧
      disasmX86 mode (window s2.bytes s.bytes.length (x86DataLength mode size op)) = some ⟨names, [.reg size n, .imm a]⟩ := by
  have hR := data_recorded h hprog
  have hlen := dataBlob_length (op := op) h.modes h.sizes
  have hpl := pre_length (op := op) h.modes h.sizes
  have hcut : (x86DataBlob mode size op).take (x86DataOffset mode size op) = (x86Pre mode size (x86Split op)).map (fun n => BitVec.ofNat 8 n) := by
    unfold x86DataBlob
    rw [List.take_append_of_le_length (by simp [hpl]), List.take_of_length_le (by simp [hpl])]
  have hzeros : (x86DataBlob mode size op).drop (x86DataOffset mode size op) = List.replicate (size / 8) 0 := by
    unfold x86DataBlob
    rw [List.drop_append_of_le_length (by simp [hpl]), List.drop_of_length_le (by simp [hpl])]
    rfl
  obtain ⟨l, hl, hrg, hneg, -, hwin⟩ := linked_instr rfl (hlen ▸ hlink) hR rfl (by
      show ofBytes false (window _ (x86DataOffset mode size op) (size / 8)) = 0
      unfold window
      rw [hzeros]
      rcases h.sizes with rfl | rfl <;> decide) h.nonempty h.plain
  have hneg := hneg rfl
  have hlt : l.org + l.base < 2 ^ size := by
    unfold RefRange at hrg
    simp only [x86DataRef, Int.sub_zero, ne_eq, not_true_eq_false, if_false] at hrg
    exact hrg
  refine ⟨l, (l.org + l.base).toNat, hl, by omega, ?_⟩
  rw [hlen] at hwin
  rw [hwin]
  have hbytes : List.take (x86DataOffset mode size op) (x86DataBlob mode size op) ++ wordBytes false (size / 8) (l.org + l.base - 0) ++
      List.drop (x86DataOffset mode size op + size / 8) (x86DataBlob mode size op) =
      (x86Pre mode size (x86Split op)).map (fun n => BitVec.ofNat 8 n) ++ wordBytes false (size / 8) (l.org + l.base) := by
    rw [hcut, ← List.drop_drop, hzeros, List.drop_replicate, Nat.sub_self, Int.sub_zero]
    simp
  have hword := ofBytes_wordBytes false (size / 8) (l.org + l.base)
  have hle : ∀ b : Bytes, ofBytes false b = ofLE b := fun _ => rfl
  rw [hle] at hword
  have h8 : 8 * (size / 8) = size := by rcases h.sizes with rfl | rfl <;> rfl
  rw [h8] at hword
  refine (congrArg (disasmX86 mode) hbytes).trans (disasm_bare h.modes h.sizes h.map rfl ?_)
  have hi := imm_decode mode (mr := none) h.sizes (wordBytes_length ..) hword (n := (l.org + l.base).toNat) (by
    rw [Int.emod_eq_of_lt hneg hlt]
    omega)
  simp only [x86Operands, x86Operand] at hi ⊢
  simp only [Option.bind_eq_bind, Option.bind_some]
  rw [hi]
  rfl

/-- C81: a label whose address does not fit the data is not linked. -/
theorem C81_rejected (h : X86Data s mode size op n names t t1 label) (hprog : InProgram x86 s t [t1, label] s1) (hord : ∀ e ∈ s1.relocs, Ordinary e.2)
    {l : LabelInfo} (hl : s1.labels.lookup label = some l) (hbad : l.org + l.base < 0 ∨ 2 ^ size ≤ l.org + l.base) : (link x86 .dummy s1).1 ≠ .ok () := by
  have hR := data_recorded h hprog
  rcases hbad with hbad | hbad
  · exact plain_negative rfl hord hR h.nonempty h.plain hl rfl hbad
  · refine plain_rejected rfl hord hR h.nonempty h.plain hl fun hrg => ?_
    unfold RefRange at hrg
    simp only [x86DataRef, Int.sub_zero, ne_eq, not_true_eq_false, if_false] at hrg
    omega

/-- C81: one whose address fits is linked, if nothing is wrong with the other references. -/
theorem C81_accepted (h : X86Data s mode size op n names t t1 label) (hprog : InProgram x86 s t [t1, label] s1) (hord : ∀ e ∈ s1.relocs, Ordinary e.2)
    {l : LabelInfo} (hl : s1.labels.lookup label = some l) (hfit : 0 ≤ l.org + l.base ∧ l.org + l.base < 2 ^ size)
    (hothers : ∀ e ∈ s1.relocs, e.1 ≠ s.bytes.length + x86DataOffset mode size op → ∀ x, ¬ Fault (labelRelative x86.sy s1.labels) s1.bytes.length e x)
    (hnodup : (s1.relocs.map Prod.fst).Nodup) : (link x86 .dummy s1).1 = .ok () := by
  have hR := data_recorded h hprog
  rw [C38_success x86 rfl s1 hord]
  intro e he x
  by_cases hee : e.1 = s.bytes.length + x86DataOffset mode size op
  · obtain ⟨k, r⟩ := e
    have hee : k = s.bytes.length + x86DataOffset mode size op := hee
    subst hee
    have hk := lookup_member hnodup he
    have he' := hR.entry
    have hoff : (x86DataRef size (x86DataOffset mode size op) label).offset = x86DataOffset mode size op := rfl
    rw [hoff, hk] at he'
    cases he'
    refine plain_fault (d := x86) hR h.nonempty h.plain hl (Int.emod_one _) (fun _ => hfit.1) ?_ (by intro hi lo hb; cases hb) x
    unfold RefRange
    simp only [x86DataRef, Int.sub_zero, ne_eq, not_true_eq_false, if_false]
    exact hfit.2
  · exact hothers e he hee x

/-! ## Examples

`again: NOP` at `0x150`, then a jump; `later` is a label further on. -/

def exX86At (mode : Nat) : St :=
  { bytes := [0x90], labels := [("again".toList, ⟨0, 0x150, none⟩), ("later".toList, ⟨0, 0x180, none⟩), ("far".toList, ⟨0, 0x9000, none⟩)], counter := 1, org := 0x150, bitsMode := mode }

/-- The program with one more line `t label`. -/
def exX86Jump (mode op : Nat) (label : String) : St := emitted (exX86At mode) (x86JumpBlob mode op) [x86Ref mode 0x151 op label.toList]

theorem exX86_jne (mode : Nat) (hm : mode ∈ [16, 32, 64]) (label : String) (hl : label ∈ ["again", "later", "far"]) :
    X86Jump (exX86At mode) mode 0xF85 ["JNZ", "JNE"] "jne".toList label.toList := by
  have e1 : x86Words.all (fun w => !(decide (upper "again".toList = upper w.toList)) && !(decide (upper "later".toList = upper w.toList)) &&
      !(decide (upper "far".toList = upper w.toList))) = true := by decide +kernel
  have e2 : ∀ mode ∈ [16, 32, 64], ∀ label ∈ ["again", "later", "far"], parseInteger x86.sy (exX86At mode).labels label.toList 16 true = .ok none := by decide +kernel
  simp only [List.all_eq_true, Bool.and_eq_true, Bool.not_eq_true', decide_eq_false_iff_not] at e1
  refine ⟨by show (0 : Int) ≤ 0x151; decide, ?_, ?_, ?_, ⟨"JNE", by decide, rfl⟩, ?_, e2 mode hm label hl, ?_, ?_⟩
  · simp only [List.mem_cons, List.not_mem_nil, or_false] at hm
    rcases hm with rfl | rfl | rfl <;> rfl
  · simpa using hm
  · simp only [List.mem_cons, List.not_mem_nil, or_false] at hm
    rcases hm with rfl | rfl | rfl <;> decide +kernel
  · intro w hw
    simp only [List.mem_cons, List.not_mem_nil, or_false] at hl
    rcases hl with rfl | rfl | rfl
    · exact (e1 w hw).1.1
    · exact (e1 w hw).1.2
    · exact (e1 w hw).2
  · simp only [List.mem_cons, List.not_mem_nil, or_false] at hl
    rcases hl with rfl | rfl | rfl <;> decide
  · simp only [List.mem_cons, List.not_mem_nil, or_false] at hl
    rcases hl with rfl | rfl | rfl <;> decide

theorem exX86_program (mode : Nat) (hm : mode ∈ [16, 32, 64]) (label : String) (hl : label ∈ ["again", "later", "far"]) :
    InProgram x86 (exX86At mode) "jne".toList [label.toList] (exX86Jump mode 0xF85 label) := by
  have h := exX86_jne mode hm label hl
  have hsub : ∀ label ∈ ["again", "later", "far"], substituteWithDict ["jne".toList, label.toList] [] 0 = ["jne".toList, label.toList] := by decide +kernel
  exact .last rfl (hsub label hl) rfl (jump_emits (c := ctxOf x86 (exX86At mode)) h.pc h.inMode h.modes h.map (name := "JNE") (by decide) rfl h.noreg h.nonumber)

example : ∃ d, disasmX86 16 (window (link x86 .dummy (exX86Jump 16 0xF85 "again")).2.bytes 1 4) = some ⟨["JNZ", "JNE"], [.rel d]⟩ ∧ 0x151 + 4 + d = (0x150 : Int) := by
  have h := C80_reaches (exX86_jne 16 (by decide) "again" (by decide)) (exX86_program 16 (by decide) "again" (by decide))
    (.single (pair_ok (by decide +kernel)) rfl ⟨by decide, by decide, rfl⟩) (l := ⟨0, 0x150, none⟩) rfl (.inl rfl)
  exact h

example : ∃ d, disasmX86 64 (window (link x86 .dummy (exX86Jump 64 0xF85 "later")).2.bytes 1 6) = some ⟨["JNZ", "JNE"], [.rel d]⟩ ∧ 0x151 + 6 + d = (0x180 : Int) := by
  have h := C80_reaches (exX86_jne 64 (by decide) "later" (by decide)) (exX86_program 64 (by decide) "later" (by decide))
    (.single (pair_ok (by decide +kernel)) rfl ⟨by decide, by decide, rfl⟩) (l := ⟨0, 0x180, none⟩) rfl (.inr (by decide))
  exact h

/-- `again: nop` and `jne again` in 32-bit mode: the jump leads to `0x10150`. -/
example : ∃ d, disasmX86 32 (window (link x86 .dummy (exX86Jump 32 0xF85 "again")).2.bytes 1 6) = some ⟨["JNZ", "JNE"], [.rel d]⟩ ∧ 0x151 + 6 + d = (0x10150 : Int) := by
  have h := C80_backward (exX86_jne 32 (by decide) "again" (by decide)) (exX86_program 32 (by decide) "again" (by decide))
    (.single (pair_ok (by decide +kernel)) rfl ⟨by decide, by decide, rfl⟩) (l := ⟨0, 0x150, none⟩) rfl (by decide) (by decide)
  exact h

example : window (link x86 .dummy (exX86Jump 32 0xF85 "again")).2.bytes 1 6 = [0x0F, 0x85, 0xF9, 0xFF, 0, 0] := by decide +kernel

example : (link x86 .dummy (exX86Jump 64 0xF85 "far")).1 ≠ .ok () :=
  C80_rejected (exX86_jne 64 (by decide) "far" (by decide)) (exX86_program 64 (by decide) "far" (by decide))
    (by intro e he; cases List.mem_singleton.1 he; exact ⟨by decide, by decide, rfl⟩) (l := ⟨0, 0x9000, none⟩) rfl (by decide)

example : (link x86 .dummy (exX86Jump 32 0xF85 "later")).1 = .ok () :=
  C80_accepted (exX86_jne 32 (by decide) "later" (by decide)) (exX86_program 32 (by decide) "later" (by decide))
    (by intro e he; cases List.mem_singleton.1 he; exact ⟨by decide, by decide, rfl⟩) (l := ⟨0, 0x180, none⟩) rfl (by decide)
    (by intro e he hne; cases List.mem_singleton.1 he; exact absurd rfl hne) (by decide)

/-! `mov cx, label` in 32-bit mode. -/

def exX86High : St := { exX86At 32 with labels := [("high".toList, ⟨0, 0x10000, none⟩), ("again".toList, ⟨0, 0x150, none⟩)] }
def exX86Mov (label : String) : St := emitted exX86High (x86DataBlob 32 16 0xB9) [x86DataRef 16 2 label.toList]

theorem exX86_mov (label : String) (hl : label ∈ ["again", "high"]) : X86Data exX86High 32 16 0xB9 1 ["MOV"] "mov".toList "cx".toList label.toList := by
  have e1 : x86Words.all (fun w => !(decide (upper "again".toList = upper w.toList)) && !(decide (upper "high".toList = upper w.toList))) = true := by decide +kernel
  have e2 : ∀ label ∈ ["again", "high"], parseInteger x86.sy exX86High.labels label.toList 16 false = .ok none := by decide +kernel
  simp only [List.all_eq_true, Bool.and_eq_true, Bool.not_eq_true', decide_eq_false_iff_not] at e1
  refine ⟨rfl, by simp, .inl rfl, by decide +kernel, ⟨"MOV", by decide, by decide, rfl⟩, ⟨_, rfl, rfl⟩, ?_, e2 label hl, ?_, ?_⟩
  · intro w hw
    simp only [List.mem_cons, List.not_mem_nil, or_false] at hl
    rcases hl with rfl | rfl
    · exact (e1 w hw).1
    · exact (e1 w hw).2
  · simp only [List.mem_cons, List.not_mem_nil, or_false] at hl
    rcases hl with rfl | rfl <;> decide
  · simp only [List.mem_cons, List.not_mem_nil, or_false] at hl
    rcases hl with rfl | rfl <;> decide

theorem exX86Mov_program (label : String) (hl : label ∈ ["again", "high"]) :
    InProgram x86 exX86High "mov".toList ["cx".toList, label.toList] (exX86Mov label) := by
  have hsub : ∀ label ∈ ["again", "high"], substituteWithDict ["mov".toList, "cx".toList, label.toList] [] 0 = ["mov".toList, "cx".toList, label.toList] := by decide +kernel
  exact .last rfl (hsub label hl) rfl (data_emits (exX86_mov label hl))

example : ∃ (l : LabelInfo) (a : Nat), (exX86Mov "again").labels.lookup "again".toList = some l ∧ (a : Int) = l.org + l.base ∧
    disasmX86 32 (window (link x86 .dummy (exX86Mov "again")).2.bytes 1 4) = some ⟨["MOV"], [.reg 16 1, .imm a]⟩ := by
  have h := C81_address (exX86_mov "again" (by decide)) (exX86Mov_program "again" (by decide))
    (.single (pair_ok (by decide +kernel)) rfl ⟨by decide, by decide, rfl⟩)
  exact h

example : window (link x86 .dummy (exX86Mov "again")).2.bytes 1 4 = [0x66, 0xB9, 0x50, 0x01] := by decide +kernel

example : (link x86 .dummy (exX86Mov "high")).1 ≠ .ok () :=
  C81_rejected (exX86_mov "high" (by decide)) (exX86Mov_program "high" (by decide))
    (by intro e he; cases List.mem_singleton.1 he; exact ⟨by decide, by decide, rfl⟩) (l := ⟨0, 0x10000, none⟩) rfl (by decide)

example : (link x86 .dummy (exX86Mov "again")).1 = .ok () :=
  C81_accepted (exX86_mov "again" (by decide)) (exX86Mov_program "again" (by decide))
    (by intro e he; cases List.mem_singleton.1 he; exact ⟨by decide, by decide, rfl⟩) (l := ⟨0, 0x150, none⟩) rfl (by decide)
    (by intro e he hne; cases List.mem_singleton.1 he; exact absurd rfl hne) (by decide)

/-! ## What does not hold: labels elsewhere -/

set_option maxRecDepth 100000 in
/-- `rep call again` in 16-bit mode: the reference is one byte early, and linking destroys the opcode.  `mov [bx + again], cx`: it merges the address into the
byte that says which registers are meant. -/
theorem C80_elsewhere :
    (Emits x86 (ctxOf x86 (exX86At 16)) "rep".toList (["call", "again"].map String.toList) [0xF3, 0xE8, 0, 0] [x86Ref 16 0x151 0xE8 "again".toList] ∧
      (link x86 .dummy (emitted (exX86At 16) [0xF3, 0xE8, 0, 0] [x86Ref 16 0x151 0xE8 "again".toList])).1 = .ok () ∧
      window (link x86 .dummy (emitted (exX86At 16) [0xF3, 0xE8, 0, 0] [x86Ref 16 0x151 0xE8 "again".toList])).2.bytes 1 4 = [0xF3, 0xFC, 0xFF, 0]) ∧
    (Emits x86 (ctxOf x86 (exX86At 16)) "mov".toList (["[", "bx", "+", "again", "]", "cx"].map String.toList) [0x89, 0x8F, 0, 0] [x86DataRef 16 1 "again".toList] ∧
      (link x86 .dummy (emitted (exX86At 16) [0x89, 0x8F, 0, 0] [x86DataRef 16 1 "again".toList])).1 = .ok () ∧
      window (link x86 .dummy (emitted (exX86At 16) [0x89, 0x8F, 0, 0] [x86DataRef 16 1 "again".toList])).2.bytes 1 4 = [0x89, 0xDF, 0x01, 0]) :=
  ⟨⟨.handler rfl (Prod.ext (by decide +kernel) rfl), by decide +kernel, by decide +kernel⟩,
   ⟨.handler rfl (Prod.ext (by decide +kernel) rfl), by decide +kernel, by decide +kernel⟩⟩

end Necro
