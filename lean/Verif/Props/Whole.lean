import Verif.Lemmas.Whole
import Verif.Props.Consoles
import Verif.Props.Intel8086Link
import Verif.Props.PowerPCLink
import Verif.Props.X86Link
/-!
# C85: a line of a program that builds is in the output as it was written

Two programs may share every line and still differ in everything else: what is before the line, behind it, which
regions, macros, files and directives it uses.  None of that shows in the bytes of the line.
-/

namespace Necro
open Spec
open M (throw get modify lift forEach times)

variable {env : Env} {depth : Nat} {codes : List Str} {s s1 s2 : St} {t : Str} {rest : List Str} {blob : Bytes} {rels : List Reloc}

/-! ## Every processor -/

/-- C85: in a program that builds every instruction line has its bytes, and they are at the place it was assembled for:
the bytes that do not belong to one of its own labels are those of the line. -/
theorem C85_line {d : Dialect} (hp : Processor d) (h : BuiltLine d env depth codes s t rest s1 s2) :
    ∃ blob rels, Emits d (ctxOf d s) t rest blob rels ∧ (∀ r ∈ rels, r.offset + r.size ≤ blob.length) ∧
      ∀ o m, o + m ≤ blob.length → (∀ r ∈ rels, r.offset + r.size ≤ o ∨ o + m ≤ r.offset) →
        window s2.bytes (s.bytes.length + o) m = window blob o m := by
  obtain ⟨-, hprog, blob, rels, hem, hown, hin⟩ := (sound_processor hp).line h (Nat.zero_le _)
  have hpost : d.postLink = pure () := by cases hp <;> rfl
  have hcode := hprog.code hem
  refine ⟨blob, rels, hem, hin, fun o m hom hr => own_untouched hpost hown hcode hom hr⟩

theorem own_all {d : Dialect} (hpost : d.postLink = pure ()) (hprog : InProgram d s t rest s1) (hem : Emits d (ctxOf d s) t rest blob [])
    (hown : LinksOwn d s1 s2 s.bytes.length blob.length []) : window s2.bytes s.bytes.length blob.length = blob := by
  have := own_untouched hpost hown (hprog.code hem) (o := 0) (m := blob.length) (by omega) (by simp)
  rw [Nat.add_zero] at this
  rw [this]; simp [window]

/-- A line without labels is in the output as it was assembled. -/
theorem plain_line {d : Dialect} (hpost : d.postLink = pure ()) (h : LinkedLine d s t rest s1 s2) (hem : Emits d (ctxOf d s) t rest blob []) :
    window s2.bytes s.bytes.length blob.length = blob := by
  obtain ⟨-, hprog, blob', rels', hem', hown, -⟩ := id h
  obtain ⟨rfl, rfl⟩ := Emits.unique hem hem'
  exact own_all hpost hprog hem hown

/-- A line with one label. -/
theorem one_label {d : Dialect} (h : LinkedLine d s t rest s1 s2) {r : Reloc} (hem : Emits d (ctxOf d s) t rest blob [r]) :
    0 ≤ s.pc ∧ InProgram d s t rest s1 ∧ LinksAlone d s1 s2 (s.bytes.length + r.offset) r ∧
      LinksClear d s1 s2 s.bytes.length blob.length (s.bytes.length + r.offset) := by
  obtain ⟨hpc, hprog, blob', rels', hem', hown, hin⟩ := id h
  obtain ⟨rfl, rfl⟩ := Emits.unique hem hem'
  exact ⟨hpc, hprog, hown.alone (hin r (by simp)), hown.clear⟩

/-! ## 68000 -/

/-- C85: for the 68000. -/
theorem C85_mc68000 (h : BuiltLine mc68000 env depth codes s t rest s1 s2) (hem : Emits mc68000 (ctxOf mc68000 s) t rest blob rels)
    (hplain : ∀ r ∈ rels, r.label ≠ [] ∧ ∀ ch ∈ r.label, formulaChar ch = false) (ho : ¬ M68Odd (m68Linked s s1) t rest) :
    ∃ used extra i, rest = used ++ extra ∧ (extra ≠ [] → M68Open i) ∧ M68Written (m68Linked s s1) t used i ∧
      disasm68 (window s2.bytes s.bytes.length blob.length) = some i := by
  obtain ⟨hpc, hprog, blob', rels', hem', hown, -⟩ := (sound_processor .mc68000).line h (Nat.zero_le _)
  obtain ⟨rfl, rfl⟩ := Emits.unique hem hem'
  exact C66_linked hpc hprog hem hown hplain ho

/-! ## Z80 -/

theorem z80_mono {value value' : M68Use → Nat → Str → Int → Prop} (hv : ∀ u n t x, value u n t x → value' u n t x) {i : Z80Instr}
    (h : Z80Written value t rest i) : Z80Written value' t rest i := by
  obtain ⟨h0, h⟩ := h
  refine ⟨h0, ?_⟩
  clear h0
  generalize i.args = as at h ⊢
  induction h with
  | nil => exact .nil
  | cons h1 _ ih =>
    refine .cons ?_ ih
    cases h1 with
    | reg a => exact .reg a
    | mem a => exact .mem a
    | cond a => exact .cond a
    | bit a => exact .bit a
    | vec a => exact .vec a
    | mode a => exact .mode a
    | zero => exact .zero
    | op a => exact .op a
    | imm8 a b => exact .imm8 (hv _ _ _ _ a) b
    | imm16 a b => exact .imm16 (hv _ _ _ _ a) b
    | mem16 a b => exact .mem16 (hv _ _ _ _ a) b
    | port a b => exact .port (hv _ _ _ _ a) b
    | rel a b => exact .rel (hv _ _ _ _ a) b
    | plus a b c => exact .plus a (hv _ _ _ _ b) c
    | minus a b c => exact .minus a (hv _ _ _ _ b) c


theorem z80_own (hpc : 0 ≤ s.pc) (hprog : InProgram z80 s t rest s1) (hem : Emits z80 (ctxOf z80 s) t rest blob rels)
    (hown : LinksOwn z80 s1 s2 s.bytes.length blob.length rels) (hplain : ∀ r ∈ rels, r.label ≠ [] ∧ ∀ ch ∈ r.label, formulaChar ch = false)
    (ho : ¬ Z80Odd t rest) :
    ∃ i, decodeZ80 (window s2.bytes s.bytes.length blob.length) = some i ∧ Z80Written (z80Linked s s1) t rest i := by
  by_cases hne : rels = []
  · subst hne
    rw [own_all rfl hprog hem hown]
    obtain ⟨i, h1, h2⟩ := C70_decodes hpc hem ho
    exact ⟨i, h1, z80_mono (fun _ _ _ _ => .inl) h2⟩
  · refine C72_linked hpc hprog hem hne ho hplain fun r hr => ?_
    obtain ⟨hook, tok, lead, trail, p, hz⟩ := z80_reference hpc hprog hem hne ho
    rw [hz.refs] at hr hown
    cases List.mem_singleton.1 hr
    exact hown.clear

/-- C85: for the Z80. -/
theorem C85_z80 (h : BuiltLine z80 env depth codes s t rest s1 s2) (hem : Emits z80 (ctxOf z80 s) t rest blob rels)
    (hplain : ∀ r ∈ rels, r.label ≠ [] ∧ ∀ ch ∈ r.label, formulaChar ch = false) (ho : ¬ Z80Odd t rest) :
    ∃ i, decodeZ80 (window s2.bytes s.bytes.length blob.length) = some i ∧ Z80Written (z80Linked s s1) t rest i := by
  obtain ⟨hpc, hprog, blob', rels', hem', hown, -⟩ := (sound_processor .z80).line h (Nat.zero_le _)
  obtain ⟨rfl, rfl⟩ := Emits.unique hem hem'
  exact z80_own hpc hprog hem hown hplain ho

/-- C85: for the Master System. -/
theorem C85_sms (h : BuiltLine (smsOn z80) env depth codes s t rest s1 s2) (hem : Emits (smsOn z80) (ctxOf (smsOn z80) s) t rest blob rels)
    (hplain : ∀ r ∈ rels, r.label ≠ [] ∧ ∀ ch ∈ r.label, formulaChar ch = false) (ho : ¬ Z80Odd t rest) :
    ∃ i, decodeZ80 (window s2.bytes s.bytes.length blob.length) = some i ∧ Z80Written (z80Linked s s1) t rest i := by
  obtain ⟨hpc, hprog, blob', rels', hem', hown, -⟩ := sound_sms.line h (Nat.zero_le _)
  obtain ⟨rfl, rfl⟩ := Emits.unique hem hem'
  exact z80_own hpc ((same_sms z80).program hprog) ((same_sms z80).emits hem) ⟨hown.ok, hown.ordinary, hown.nodup, hown.own⟩ hplain ho

/-! ## PowerPC -/

theorem fill_mono {value value' : PpcOperand → Nat → Str → Nat → Prop} (hv : ∀ u n t x, value u n t x → value' u n t x) {fs : List PpcField} {as : List PpcArg}
    {vs : List Nat} (h : PpcFill value rest fs as vs) : PpcFill value' rest fs as vs := by
  induction h with
  | nil => exact .nil
  | num _ ih => exact .num ih
  | op a b _ ih => exact .op a (text_mono (hv _ _ _ _) b) ih

theorem ppc_mono {value value' : PpcOperand → Nat → Str → Nat → Prop} (hv : ∀ u n t x, value u n t x → value' u n t x) {i : String × List Nat}
    (h : PpcWritten value t rest i) : PpcWritten value' t rest i := by
  obtain ⟨f, hf, h⟩ := h
  refine ⟨f, hf, ?_⟩
  cases h with
  | mk h1 h2 h3 h4 h5 =>
    refine .mk h1 h2 h3 h4 (fill_mono hv h5)

theorem linked_ppc (h : LinkedLine ppc s t rest s1 s2) (hem : Emits ppc (ctxOf ppc s) t rest blob rels) (hone : rels.length ≤ 1)
    (hplain : ∀ r ∈ rels, r.label ≠ [] ∧ ∀ ch ∈ r.label, formulaChar ch = false) (ho : ¬ PpcOdd t rest) :
    ∃ i, decodePpcBytes (window s2.bytes s.bytes.length 4) = some i ∧ PpcWritten (ppcLinked s s1) t rest i := by
  obtain ⟨hpc, hprog, blob', rels', hem', hown, hin⟩ := id h
  obtain ⟨rfl, rfl⟩ := Emits.unique hem hem'
  match rels with
  | [] =>
    obtain ⟨h0, i, h1, h2⟩ := C73_decodes hem ho
    have := plain_line rfl h hem
    rw [h0] at this
    rw [this]
    exact ⟨i, h1, ppc_mono (fun _ _ _ _ => .inl) h2⟩
  | [r] =>
    obtain ⟨row, vals, f, op, j, x, tok, hr⟩ := ppc_ref hprog hem ho
    have h0 : r.offset = 0 := by rw [hr.ref, ppcSlot_offset]
    have := hown.alone (hin r (by simp))
    rw [h0, Nat.add_zero] at this
    exact C75_linked hprog hem ho (hplain r (by simp)) this
  | _ :: _ :: _ => simp at hone

/-- C85: for the PowerPC; a line with two labels keeps only the second. -/
theorem C85_ppc (h : BuiltLine ppc env depth codes s t rest s1 s2) (hem : Emits ppc (ctxOf ppc s) t rest blob rels) (hone : rels.length ≤ 1)
    (hplain : ∀ r ∈ rels, r.label ≠ [] ∧ ∀ ch ∈ r.label, formulaChar ch = false) (ho : ¬ PpcOdd t rest) :
    ∃ i, decodePpcBytes (window s2.bytes s.bytes.length 4) = some i ∧ PpcWritten (ppcLinked s s1) t rest i :=
  linked_ppc ((sound_processor .ppc).line h (Nat.zero_le _)) hem hone hplain ho

/-! ## 8086 -/

theorem meets_mono {value value' : M68Use → Nat → Str → Int → Prop} (hv : ∀ u n t x, value u n t x → value' u n t x) {sl : List M68Slot} {v : List Int}
    (h : I86Meets value sl v) : I86Meets value' sl v := by
  induction h with
  | nil => exact .nil
  | cons a b _ ih => exact .cons (hv _ _ _ _ a) b ih

theorem linked_i8086 (h : LinkedLine i8086 s t rest s1 s2) (hem : Emits i8086 (ctxOf i8086 s) t rest blob rels)
    (hplain : ∀ r ∈ rels, r.label ≠ [] ∧ ∀ ch ∈ r.label, formulaChar ch = false) (hin : rels ≠ [] → ¬ I86Inner t rest)
    (ho : ¬ I86Odd (i86Linked s s1) t rest) :
    ∃ used extra i, rest = used ++ extra ∧ (i.args = [] → extra = []) ∧ I86Written (i86Linked s s1) t used i ∧
      disasm86 (window s2.bytes s.bytes.length blob.length) = some i := by
  obtain ⟨hpc, hprog, blob', rels', hem', hown, -⟩ := id h
  obtain ⟨rfl, rfl⟩ := Emits.unique hem hem'
  by_cases hne : rels = []
  · subst hne
    rw [plain_line rfl h hem]
    obtain ⟨r, ts, us, sl, v, b, stale, own, hr⟩ := line_row hem
    have hnil : own = [] := (List.append_eq_nil_iff.1 hr.refs.symm).2
    have hm := reads_meets (encs_slots (c := ctxOf i8086 s) hpc hr.encs) hr.reads hnil
    rw [hr.code]
    exact line_decodes linked_reading hr hr.encs (meets_mono (fun _ _ _ _ => .inl) hm) ho
  · refine C69_linked hpc hprog hem hne (hin hne) ho hplain ⟨hown.ok, hown.ordinary, hown.nodup, fun f hf hne' j h1 h2 hc => ?_⟩
    obtain ⟨r, hr, rfl⟩ := hown.own f hf j h1 h2 hc
    refine hne' ?_
    obtain ⟨row, ts, us, sl, v, b, stale, own, p, tail, hrow, rfl, -, hp, -⟩ := i86_reference hpc hprog hem hne (hin hne) ho
    show s.bytes.length + r.offset = s.bytes.length + 1
    have hoff : r.offset = 1 := by
      rw [hrow.refs] at hr
      rcases List.mem_append.1 hr with hr | hr
      · obtain ⟨q, hq, -, rs, hrun, hx⟩ := hrow.left r hr
        obtain ⟨-, -, -, h4, -⟩ := row_stale hq hrun (List.ne_nil_of_mem hx)
        exact h4 r hx
      · have hreads := hrow.reads
        cases hreads with
        | cons e1 e2 =>
          cases e2
          rw [List.append_nil] at hr
          rcases slot_value (encs_slots (c := ctxOf i8086 s) hpc hrow.encs p (by simp)) e1 with ⟨rfl, -⟩ | ⟨rfl, -⟩
          · cases hr
          · cases List.mem_singleton.1 hr
            exact hp.offset
    rw [hoff]

/-- C85: for the 8086. -/
theorem C85_i8086 (h : BuiltLine i8086 env depth codes s t rest s1 s2) (hem : Emits i8086 (ctxOf i8086 s) t rest blob rels)
    (hplain : ∀ r ∈ rels, r.label ≠ [] ∧ ∀ ch ∈ r.label, formulaChar ch = false) (hin : rels ≠ [] → ¬ I86Inner t rest)
    (ho : ¬ I86Odd (i86Linked s s1) t rest) :
    ∃ used extra i, rest = used ++ extra ∧ (i.args = [] → extra = []) ∧ I86Written (i86Linked s s1) t used i ∧
      disasm86 (window s2.bytes s.bytes.length blob.length) = some i :=
  linked_i8086 ((sound_processor .i8086).line h (Nat.zero_le _)) hem hplain hin ho

/-! ## LR35902 -/

/-- What a token stands for in the program `s'`, seen from an instruction with the given operands assembled in state `s`: a number, or a
label, whose address counts from the end of the instruction if the operand is a distance. -/
def gbLinked (s s' : St) (args : List GbArg) (tok : Str) (x : Int) : Prop :=
  (∃ dec, TokenValue lr35902.sy s.labels tok x dec) ∨
    ((∀ y dec, ¬ TokenValue lr35902.sy s.labels tok y dec) ∧ ∃ l, s'.labels.lookup tok = some l ∧ x = gbReference args s.pc (l.org + l.base))

theorem gbArgs_mono {value value' : Str → Int → Prop} (hv : ∀ t x, value t x → value' t x) {v : Int} {as : List GbArg} (h : GbArgsText value v as rest) :
    GbArgsText value' v as rest := by
  induction h with
  | nil => exact .nil
  | cons h1 _ ih =>
    refine .cons ?_ ih
    cases h1 with
    | reg a => exact .reg a
    | mem a b => exact .mem a b
    | cond a => exact .cond a
    | bit a => exact .bit a
    | vec a b => exact .vec a b
    | imm8 a b => exact .imm8 (hv _ _ a) b
    | imm16 a b => exact .imm16 (hv _ _ a) b
    | mem16 a b c => exact .mem16 a (hv _ _ b) c
    | high a b c => exact .high a (hv _ _ b) c
    | highC a b => exact .highC a b
    | rel a b => exact .rel (hv _ _ a) b
    | spPlus a b => exact .spPlus (hv _ _ a) b
    | spMinus a b => exact .spMinus (hv _ _ a) b

theorem gb_mono {value value' : Str → Int → Prop} (hv : ∀ t x, value t x → value' t x) {i : GbInstr} (h : GbWritten value t rest i) : GbWritten value' t rest i := by
  cases h with
  | plain a b => exact .plain a (gbArgs_mono hv b)
  | alu a b c => exact .alu a b (gbArgs_mono hv c)
  | ldhStore a b c d e f => exact .ldhStore a b c d (hv _ _ e) f
  | ldhLoad a b c d e f => exact .ldhLoad a b c d (hv _ _ e) f
  | stop a b c => exact .stop a b c

/-- A line has one label or none. -/
theorem gb_refs {c : Ctx} (hem : Emits lr35902 c t rest blob rels) (ho : ¬ GbOdd t rest) :
    rels = [] ∨ ∃ r, rels = [r] ∧ r.offset = 1 ∧ ∀ y dec, ¬ TokenValue c.sy c.labels r.label y dec := by
  cases gb_parsed hem ho with
  | plain h => exact .inl h
  | @operand op k tok bs name as hb hf hd hw hk =>
    obtain ⟨v, -, hv⟩ := gbFetch_ok hf
    have : ∃ x, OperandValue c rels tok x := by cases k <;> exact ⟨_, hv.choose_spec.1⟩
    obtain ⟨x, ⟨h, -⟩ | ⟨r, rfl, rfl, -, h⟩⟩ := this
    · exact .inl h
    · exact .inr ⟨r, rfl, by rw [(gbFetch_label hf).1, gbRef_offset], h⟩

theorem gb_own (hpc : 0 ≤ s.pc) (hprog : InProgram lr35902 s t rest s1) (hem : Emits lr35902 (ctxOf lr35902 s) t rest blob rels)
    (hown : LinksOwn lr35902 s1 s2 s.bytes.length blob.length rels) (hplain : ∀ r ∈ rels, ∀ ch ∈ r.label, formulaChar ch = false) (ho : ¬ GbOdd t rest) :
    ∃ i, decodeGb (window s2.bytes s.bytes.length blob.length) = some i ∧ GbWritten (gbLinked s s1 i.args) t rest i := by
  rcases gb_refs hem ho with rfl | ⟨r, rfl, hr, hno⟩
  · rw [own_all rfl hprog hem hown]
    obtain ⟨i, h1, h2⟩ := C58_decodes _ t rest blob [] hem ho
    refine ⟨i, h1, gb_mono (fun tok x hx => ?_) h2⟩
    rcases hx with ⟨-, hx⟩ | ⟨r, hr, -⟩
    · exact .inl hx
    · cases hr
  · have hclear := hown.clear
    rw [hr] at hclear
    obtain ⟨l, i, h1, h2, h3, h4⟩ := C59_linked s s1 s2 t rest blob r hpc hem ho (hplain r (by simp)) hprog hclear
    refine ⟨i, h2, gb_mono (fun tok x hx => ?_) h3⟩
    obtain ⟨rfl, rfl⟩ := hx
    exact .inr ⟨hno, l, h1, h4⟩

/-- C85: for the LR35902. -/
theorem C85_lr35902 (h : BuiltLine lr35902 env depth codes s t rest s1 s2) (hem : Emits lr35902 (ctxOf lr35902 s) t rest blob rels)
    (hplain : ∀ r ∈ rels, ∀ ch ∈ r.label, formulaChar ch = false) (ho : ¬ GbOdd t rest) :
    ∃ i, decodeGb (window s2.bytes s.bytes.length blob.length) = some i ∧ GbWritten (gbLinked s s1 i.args) t rest i := by
  obtain ⟨hpc, hprog, blob', rels', hem', hown, -⟩ := (sound_processor .lr35902).line h (Nat.zero_le _)
  obtain ⟨rfl, rfl⟩ := Emits.unique hem hem'
  exact gb_own hpc hprog hem hown hplain ho

/-- C85: for the Game Boy: the boot ROM accepts the image, and a line behind the header is in it as written. -/
theorem C85_gameboy (h : BuiltLine (gameboyOn lr35902) env depth codes s t rest s1 s2)
    (hem : Emits (gameboyOn lr35902) (ctxOf (gameboyOn lr35902) s) t rest blob rels)
    (hplain : ∀ r ∈ rels, ∀ ch ∈ r.label, formulaChar ch = false) (ho : ¬ GbOdd t rest) (hh : 0x150 ≤ s.bytes.length) :
    BootCheck s2.bytes ∧
      ∃ i, decodeGb (window s2.bytes s.bytes.length blob.length) = some i ∧ GbWritten (gbLinked s s1 i.args) t rest i := by
  obtain ⟨hpc, hprog, blob', rels', hem', hown, -⟩ := sound_gameboy.line h (by omega)
  obtain ⟨rfl, rfl⟩ := Emits.unique hem hem'
  obtain ⟨s', h1, h2, h3⟩ := C76_gameboy_image lr35902 rfl .dummy s1 s2 hown.ok
  refine ⟨h3, ?_⟩
  rw [window_outside h2 (by omega)]
  exact gb_own hpc ((same_gameboy _).program hprog) ((same_gameboy _).emits hem) ⟨h1, hown.ordinary, hown.nodup, hown.own⟩ hplain ho

/-! ## 6502 -/

theorem branch_own {label : Str} {op : Nat} {m : String} (hpc : 0 ≤ s.pc) (hprog : InProgram mos6502 s t (label :: rest) s1) (ho : op < 256)
    (hd : decode6502 op = some (m, .relative)) (ht : upper t = m.toList) (hnum : parseInteger mos6502.sy s.labels label 8 true = .ok none)
    (hplain : ∀ ch ∈ label, formulaChar ch = false) (hown : LinksOwn mos6502 s1 s2 s.bytes.length 2 [branchRef label s.pc]) :
    ∃ l disp, s1.labels.lookup label = some l ∧ window s2.bytes s.bytes.length 2 = [BitVec.ofNat 8 op, disp] ∧
      s.pc + 2 + disp.toInt = l.org + l.base := by
  have hem := C51_emits (ctxOf mos6502 s) t label rest op m ho hd ht hpc hnum
  have halone := hown.alone (by simp [branchRef])
  have hop := own_untouched (blob := [BitVec.ofNat 8 op, 0]) rfl hown (hprog.code hem) (o := 0) (m := 1) (by simp) (by simp [branchRef])
  cases hprog with
  | @mk depth ln tokens s0 hrec hsub hmac hrun hk =>
    obtain ⟨l, disp, h1, h2, h3⟩ := C51_reaches s s0 s1 s2 depth tokens ln t label rest op m ho hd ht hrec hsub hmac hpc hnum hplain
      hrun hk hown.ok hown.ordinary hown.nodup halone.apart
    refine ⟨l, disp, h1, ?_, h3⟩
    rw [window_add _ _ 1 1]
    rw [Nat.add_zero] at hop
    rw [hop]
    have : window s2.bytes (s.bytes.length + 1) 1 = [disp] := by
      unfold window
      rw [List.take_one, List.head?_drop, h2]
      rfl
    rw [this]
    rfl

/-- C85: for the 6502, a branch: its operand leads to the label. -/
theorem C85_mos6502 {label : Str} (h : BuiltLine mos6502 env depth codes s t (label :: rest) s1 s2) {op : Nat} {m : String} (ho : op < 256)
    (hd : decode6502 op = some (m, .relative)) (ht : upper t = m.toList) (hnum : parseInteger mos6502.sy s.labels label 8 true = .ok none)
    (hplain : ∀ ch ∈ label, formulaChar ch = false) :
    ∃ l disp, s1.labels.lookup label = some l ∧ window s2.bytes s.bytes.length 2 = [BitVec.ofNat 8 op, disp] ∧
      s.pc + 2 + disp.toInt = l.org + l.base := by
  obtain ⟨hpc, hprog, blob', rels', hem', hown, -⟩ := (sound_processor .mos6502).line h (Nat.zero_le _)
  obtain ⟨rfl, rfl⟩ := Emits.unique (C51_emits (ctxOf mos6502 s) t label rest op m ho hd ht hpc hnum) hem'
  exact branch_own hpc hprog ho hd ht hnum hplain hown

/-- C85: for the NES, a branch behind the first seven bytes of the header. -/
theorem C85_nes {label : Str} (h : BuiltLine nes env depth codes s t (label :: rest) s1 s2) {op : Nat} {m : String} (ho : op < 256)
    (hd : decode6502 op = some (m, .relative)) (ht : upper t = m.toList) (hnum : parseInteger nes.sy s.labels label 8 true = .ok none)
    (hplain : ∀ ch ∈ label, formulaChar ch = false) (hh : 7 ≤ s.bytes.length) :
    ∃ l disp, s1.labels.lookup label = some l ∧ window s2.bytes s.bytes.length 2 = [BitVec.ofNat 8 op, disp] ∧
      s.pc + 2 + disp.toInt = l.org + l.base := by
  obtain ⟨hpc, hprog, blob', rels', hem', hown, -⟩ := sound_nes.line h hh
  obtain ⟨rfl, rfl⟩ := Emits.unique (C51_emits (ctxOf mos6502 s) t label rest op m ho hd ht hpc hnum) (same_nes.emits hem')
  exact branch_own hpc (same_nes.program hprog) ho hd ht hnum hplain ⟨hown.ok, hown.ordinary, hown.nodup, hown.own⟩

/-- C85: for the 6502, a line without labels: its opcode and operand are in the output. -/
theorem C85_mos6502_plain (h : BuiltLine mos6502 env depth codes s t rest s1 s2) (hem : Emits mos6502 (ctxOf mos6502 s) t rest blob []) :
    ∃ op operand m mode, window s2.bytes s.bytes.length (1 + operand.length) = op :: operand ∧ decode6502 op.toNat = some (m, mode) ∧ upper t = m.toList ∧
      operand.length = mode.operandSize ∧ (Written rest mode ∨ mode = .relative ∧ rest ≠ []) := by
  obtain ⟨op, operand, m, mode, rfl, h1⟩ := C49_decodes _ t rest blob [] hem
  have := plain_line rfl ((sound_processor .mos6502).line h (Nat.zero_le _)) hem
  exact ⟨op, operand, m, mode, by rw [Nat.add_comm]; exact this, h1⟩

/-! ## MIPS -/

/-- C85: for MIPS, a line without labels. -/
theorem C85_mips_plain (be : Bool) (h : BuiltLine (mipsOn be) env depth codes s t rest s1 s2) (hem : Emits (mipsOn be) (ctxOf (mipsOn be) s) t rest blob [])
    (hodd : ∀ m ∈ mipsOdd, ¬ eqNoCase t m.toList) :
    ∃ m i, eqNoCase t m.toList ∧ decodeMips (ofBytes be (window s2.bytes s.bytes.length 4)) = some i ∧
      MipsWritten (OperandValue (ctxOf (mipsOn be) s) []) m rest i := by
  obtain ⟨hlen, m, i, h1, h2, h3⟩ := C55_decodes be _ t rest blob [] hem hodd
  have := plain_line rfl ((sound_processor (.mips be)).line h (Nat.zero_le _)) hem
  rw [hlen] at this
  exact ⟨m, i, h1, by rw [this]; exact h2, h3⟩

/-- C85: for MIPS, a branch to an aligned label goes to it. -/
theorem C85_mips_branch (be : Bool) {label : Str} {m : String} {i : Nat → MipsInstr} (h : BuiltLine (mipsOn be) env depth codes s t rest s1 s2)
    (hl : MipsBranchLine label m rest i) (ht : eqNoCase t m.toList) (hc : MipsConst label)
    (hnum : parseInteger (mipsOn be).sy s.labels label 18 true = .ok none) (hplain : ∀ ch ∈ label, formulaChar ch = false) {l : LabelInfo}
    (hlk : s1.labels.lookup label = some l) (hal : (l.org + l.base - s.pc) % 4 = 0) :
    ∃ off, decodeMips (ofBytes be (window s2.bytes s.bytes.length 4)) = some (i off) ∧ s.pc + 4 + 4 * toSigned 16 off = l.org + l.base := by
  obtain ⟨hpc, -⟩ := (sound_processor (.mips be)).line h (Nat.zero_le _)
  obtain ⟨-, blob, hem, -⟩ := branch_word (be := be) (c := ctxOf (mipsOn be) s) hl ht hpc hc hnum
  obtain ⟨-, hprog, halone, -⟩ := one_label ((sound_processor (.mips be)).line h (Nat.zero_le _)) hem
  exact C56_aligned be s s1 s2 t label m rest i hl ht hpc hc hnum hplain hprog halone l hlk hal

/-- C85: for MIPS, a jump to an aligned label in the same region goes to it. -/
theorem C85_mips_jump (be : Bool) {label : Str} {m : String} (h : BuiltLine (mipsOn be) env depth codes s t [label] s1 s2)
    (hm : m = "j" ∨ m = "jal") (ht : eqNoCase t m.toList) (hc : MipsConst label)
    (hnum : parseInteger (mipsOn be).sy s.labels label 32 false = .ok none) (hplain : ∀ ch ∈ label, formulaChar ch = false) {l : LabelInfo}
    (hlk : s1.labels.lookup label = some l) (hal : (l.org + l.base) % 4 = 0) (hreg : (l.org + l.base) / 2 ^ 28 = (s.pc + 4) / 2 ^ 28) :
    ∃ target, decodeMips (ofBytes be (window s2.bytes s.bytes.length 4)) = some (.jump m target) ∧
      (s.pc + 4) / 2 ^ 28 * 2 ^ 28 + 4 * (target : Int) = l.org + l.base := by
  obtain ⟨-, blob, hem, -⟩ := jump_word (be := be) (c := ctxOf (mipsOn be) s) hm ht hc hnum
  obtain ⟨-, hprog, halone, -⟩ := one_label ((sound_processor (.mips be)).line h (Nat.zero_le _)) hem
  exact C57_reaches be s s1 s2 t label m hm ht hc hnum hplain hprog halone l hlk hal hreg

/-! ## Thumb -/

/-- C85: for Thumb, a line without labels that is not a call. -/
theorem C85_thumb_plain (h : BuiltLine thumb env depth codes s t rest s1 s2) (hem : Emits thumb (ctxOf thumb s) t rest blob [])
    (hbl : ¬ eqNoCase t "BL".toList) (hodd : ¬ ThOdd (OperandValue (ctxOf thumb s) []) t rest) :
    ∃ i, decode16 (ofBytes false (window s2.bytes s.bytes.length 2)) = some i ∧ ThWritten (OperandValue (ctxOf thumb s) []) t rest i := by
  obtain ⟨hlen, i, h1, h2⟩ := C61_decodes _ t rest blob [] hem hbl hodd
  have := plain_line rfl ((sound_processor .thumb).line h (Nat.zero_le _)) hem
  rw [hlen] at this
  exact ⟨i, by rw [this]; exact h1, h2⟩

/-- C85: for Thumb, a branch goes to its label (which is at an even address; so is the branch, or the distance is one too small). -/
theorem C85_thumb_branch {op : TOp} {label : Str} (h : BuiltLine thumb env depth codes s t [label] s1 s2) (hop : op ∈ thBranches)
    (ht : eqNoCase t op.name.toList) (hne : label ≠ []) (hhash : label.head? ≠ some '#') (hplain : ∀ ch ∈ label, formulaChar ch = false)
    (hnum : parseInteger thumb.sy s.labels label (thReach op + 2) true = .ok none) :
    ∃ l off, s1.labels.lookup label = some l ∧ (l.org + l.base) % 2 = 0 ∧
      decode16 (ofBytes false (window s2.bytes s.bytes.length 2)) = some ⟨op, [.dist (thReach op + 2) off]⟩ ∧
      s.pc + 4 + off = l.org + l.base - s.pc % 2 := by
  obtain ⟨hpc, -⟩ := (sound_processor .thumb).line h (Nat.zero_le _)
  obtain ⟨blob, hem, -⟩ := th_branch (c := ctxOf thumb s) hop ht hpc hne hhash hnum
  obtain ⟨-, hprog, halone, -⟩ := one_label ((sound_processor .thumb).line h (Nat.zero_le _)) hem
  exact C62_reaches s s1 s2 op hop t label ht hpc hne hhash hplain hnum hprog halone

/-- C85: for Thumb, a call goes to its label. -/
theorem C85_thumb_call {label : Str} (h : BuiltLine thumb env depth codes s t [label] s1 s2)
    (ht : eqNoCase t "BL".toList) (hne : label ≠ []) (hhash : label.head? ≠ some '#') (hplain : ∀ ch ∈ label, formulaChar ch = false)
    (hnum : parseInteger thumb.sy s.labels label 23 true = .ok none) :
    ∃ l off, s1.labels.lookup label = some l ∧ (l.org + l.base) % 2 = 0 ∧
      decodeBl (ofBytes false (window s2.bytes s.bytes.length 2)) (ofBytes false (window s2.bytes (s.bytes.length + 2) 2)) = some ⟨.BL, [.dist 23 off]⟩ ∧
      s.pc + 4 + off = l.org + l.base - s.pc % 2 := by
  obtain ⟨hpc, hprog, blob', rels', hem', hown, -⟩ := (sound_processor .thumb).line h (Nat.zero_le _)
  have hem := bl_label (c := ctxOf thumb s) ht hne hhash hnum
  obtain ⟨rfl, rfl⟩ := Emits.unique hem hem'
  have hlen : (wordBytes false 2 (0xF000 : Nat) ++ wordBytes false 2 (0xF800 : Nat)).length = 4 := rfl
  refine C63_reaches s s1 s2 t label ht hpc hne hhash hplain hnum hprog ⟨⟨hown.ok, hown.ordinary, hown.nodup, fun f hf hne j hj => ?_⟩,
    ⟨hown.ok, hown.ordinary, hown.nodup, fun f hf hne j hj => ?_⟩⟩
  · obtain ⟨⟨j1, j2⟩, j3⟩ := hj
    have j1 : s.bytes.length ≤ j := j1
    have j2 : j < s.bytes.length + 2 := j2
    obtain ⟨r, hr, rfl⟩ := hown.own f hf j j1 (by rw [hlen]; omega) j3
    rcases List.mem_cons.1 hr with rfl | hr
    · exact hne rfl
    · cases List.mem_singleton.1 hr
      have : s.bytes.length + 2 ≤ j := j3.1
      omega
  · obtain ⟨⟨j1, j2⟩, j3⟩ := hj
    have j1 : s.bytes.length + 2 ≤ j := j1
    have j2 : j < s.bytes.length + 2 + 2 := j2
    obtain ⟨r, hr, rfl⟩ := hown.own f hf j (by omega) (by rw [hlen]; omega) j3
    rcases List.mem_cons.1 hr with rfl | hr
    · have : j < s.bytes.length + 0 + 2 := j3.2
      omega
    · cases List.mem_singleton.1 hr
      exact hne rfl

/-! ## x86 -/

theorem linked_x86_jump {mode op : Nat} {names : List String} {label : Str} (h : LinkedLine x86 s t [label] s1 s2)
    (hj : X86Jump s mode op names t label) {l : LabelInfo} (hl : s1.labels.lookup label = some l)
    (hforward : mode = 16 ∨ s.pc + x86JumpLength mode op ≤ l.org + l.base) :
    ∃ d, disasmX86 mode (window s2.bytes s.bytes.length (x86JumpLength mode op)) = some ⟨names, [.rel d]⟩ ∧
      s.pc + x86JumpLength mode op + d = l.org + l.base := by
  obtain ⟨n, hn, ht⟩ := hj.name
  have hem := jump_emits (c := ctxOf x86 s) hj.pc hj.inMode hj.modes hj.map hn ht hj.noreg hj.nonumber
  obtain ⟨-, hprog, -, hclear⟩ := one_label h hem
  rw [jumpBlob_length, show (x86Ref mode (ctxOf x86 s).pc op label).offset = x86OpLength op from split_length op] at hclear
  exact C80_reaches hj hprog hclear hl hforward

/-- C85: for the x86, a jump or call goes to its label, if it is in 16-bit mode or the label is behind it. -/
theorem C85_x86_jump {mode op : Nat} {names : List String} {label : Str} (h : BuiltLine x86 env depth codes s t [label] s1 s2)
    (hj : X86Jump s mode op names t label) {l : LabelInfo} (hl : s1.labels.lookup label = some l)
    (hforward : mode = 16 ∨ s.pc + x86JumpLength mode op ≤ l.org + l.base) :
    ∃ d, disasmX86 mode (window s2.bytes s.bytes.length (x86JumpLength mode op)) = some ⟨names, [.rel d]⟩ ∧
      s.pc + x86JumpLength mode op + d = l.org + l.base :=
  linked_x86_jump ((sound_processor .x86).line h (Nat.zero_le _)) hj hl hforward

theorem linked_x86_address {mode size op n : Nat} {names : List String} {t1 label : Str} (h : LinkedLine x86 s t [t1, label] s1 s2)
    (hj : X86Data s mode size op n names t t1 label) :
    ∃ (l : LabelInfo) (a : Nat), s1.labels.lookup label = some l ∧ (a : Int) = l.org + l.base ∧
      disasmX86 mode (window s2.bytes s.bytes.length (x86DataLength mode size op)) = some ⟨names, [.reg size n, .imm a]⟩ := by
  obtain ⟨-, hprog, -, hclear⟩ := one_label h (data_emits hj)
  rw [dataBlob_length hj.modes hj.sizes] at hclear
  exact C81_address hj hprog hclear

/-- C85: for the x86, a label as the operand of an instruction is its address. -/
theorem C85_x86_address {mode size op n : Nat} {names : List String} {t1 label : Str} (h : BuiltLine x86 env depth codes s t [t1, label] s1 s2)
    (hj : X86Data s mode size op n names t t1 label) :
    ∃ (l : LabelInfo) (a : Nat), s1.labels.lookup label = some l ∧ (a : Int) = l.org + l.base ∧
      disasmX86 mode (window s2.bytes s.bytes.length (x86DataLength mode size op)) = some ⟨names, [.reg size n, .imm a]⟩ :=
  linked_x86_address ((sound_processor .x86).line h (Nat.zero_le _)) hj

theorem linked_x86_plain {mode size op : Nat} {kinds : List X86Kind} {name : String} {names : List String} {os : List X86Opnd}
    (h : LinkedLine x86 s t rest s1 s2) (hmode : x86Mode (ctxOf x86 s) = mode) (hm : mode = 16 ∨ mode = 32 ∨ mode = 64)
    (hs : size = 16 ∨ size = 32) (hmap : x86Main mode size op = some (names, kinds)) (hn : name ∈ names) (hl : name ∉ x86Lost)
    (ht : eqNoCase t name.toList) (hstack : ∀ n, kinds = [.zs n] → size = 16 ∨ mode = 64)
    (ha : X86TakesAll (m68Number (ctxOf x86 s)) mode size kinds os rest) :
    ∃ n, disasmX86 mode (window s2.bytes s.bytes.length n) = some ⟨names, os⟩ := by
  obtain ⟨hpc, -⟩ := id h
  obtain ⟨blob, hem, hdec⟩ := C78_code (c := ctxOf x86 s) rfl hpc hmode hm hs hmap hn hl ht hstack ha
  exact ⟨blob.length, by rw [plain_line rfl h hem]; exact hdec⟩

/-- C85: for the x86, a line without labels whose instruction is in the opcode map. -/
theorem C85_x86_plain {mode size op : Nat} {kinds : List X86Kind} {name : String} {names : List String} {os : List X86Opnd}
    (h : BuiltLine x86 env depth codes s t rest s1 s2) (hmode : x86Mode (ctxOf x86 s) = mode) (hm : mode = 16 ∨ mode = 32 ∨ mode = 64)
    (hs : size = 16 ∨ size = 32) (hmap : x86Main mode size op = some (names, kinds)) (hn : name ∈ names) (hl : name ∉ x86Lost)
    (ht : eqNoCase t name.toList) (hstack : ∀ n, kinds = [.zs n] → size = 16 ∨ mode = 64)
    (ha : X86TakesAll (m68Number (ctxOf x86 s)) mode size kinds os rest) :
    ∃ n, disasmX86 mode (window s2.bytes s.bytes.length n) = some ⟨names, os⟩ :=
  linked_x86_plain ((sound_processor .x86).line h (Nat.zero_le _)) hmode hm hs hmap hn hl ht hstack ha

/-! ## Examples -/

/-! ## Examples -/

/-- The state when a line is reached. -/
def exReach (d : Dialect) (pre : List Stmt) : St := (M.forEach pre (execStmt d {} 2 (assemble d {} 2)) d.init).2
def exObject (d : Dialect) (code : String) : St := (assemble d {} 3 code.toList d.init).2
def exImage (d : Dialect) (code : String) : St := (link d .dummy (exObject d code)).2

theorem built_of {d : Dialect} {code : String} (pre : List Stmt) (tokens : List String) (ln : Nat) (post : List Stmt) {t : Str} {rest : List Str}
    (h1 : tokenize code.toList = .ok (pre ++ ⟨.instr, tokens.map String.toList, ln⟩ :: post))
    (h2 : (M.forEach pre (execStmt d {} 2 (assemble d {} 2)) d.init).1 = .ok ())
    (h3 : substituteWithDict (tokens.map String.toList) (exReach d pre).defines 0 = t :: rest) (h4 : (exReach d pre).recording = none)
    (h5 : (exReach d pre).macros.lookup (d.key t) = none) (h6 : (assemble d {} 3 code.toList d.init).1 = .ok ())
    (h7 : (link d .dummy (exObject d code)).1 = .ok ()) (h8 : ∀ e ∈ (exObject d code).relocs, e.2.hook = none) :
    BuiltLine d {} 3 [code.toList] (exReach d pre) t rest (exObject d code) (exImage d code) :=
  ⟨visits_source h1 (pair_ok h2) h3 h4 h5 (pair_ok h6), pair_ok h7, h8⟩

def exStmt (k : Kind) (tokens : List String) (ln : Nat) : Stmt := ⟨k, tokens.map String.toList, ln⟩

/-- A Z80 program with a definition, a macro and a label defined after its use. -/
def exWholeZ80 : String := ".define COUNT $12\n.macro twice\nINC A\nINC A\n.endmacro\ntwice\nLD B, COUNT\nLD A, (table)\nRET\ntable: .db 7\n"

def exZ80Pre : List Stmt := [exStmt .directive [".define", "COUNT", "$12"] 1, exStmt .directive [".macro", "twice"] 2, exStmt .instr ["INC", "A"] 3, exStmt .instr ["INC", "A"] 4,
  exStmt .directive [".endmacro"] 5, exStmt .instr ["twice"] 6, exStmt .instr ["LD", "B", "COUNT"] 7]

theorem exWholeZ80_built : BuiltLine z80 {} 3 [exWholeZ80.toList] (exReach z80 exZ80Pre) "LD".toList (["A", "(", "table", ")"].map String.toList) (exObject z80 exWholeZ80) (exImage z80 exWholeZ80) :=
  built_of exZ80Pre ["LD", "A", "(", "table", ")"] 8 [exStmt .instr ["RET"] 9, exStmt .label ["table"] 10, exStmt .directive [".db", "7"] 10]
    (by decide +kernel) (by decide +kernel) (by decide +kernel) (by decide +kernel) (by decide +kernel) (by decide +kernel) (by decide +kernel) (by decide +kernel)

example : ∃ i, decodeZ80 (window (exImage z80 exWholeZ80).bytes 4 3) = some i ∧
    Z80Written (z80Linked (exReach z80 exZ80Pre) (exObject z80 exWholeZ80)) "LD".toList (["A", "(", "table", ")"].map String.toList) i := by
  have he : Emits z80 (ctxOf z80 (exReach z80 exZ80Pre)) "LD".toList (["A", "(", "table", ")"].map String.toList) [0x3A, 0, 0]
      [{ label := "table".toList, size := 2, bitsSize := 16, offset := 1 }] := .handler rfl (Prod.ext (by decide +kernel) rfl)
  have h := C85_z80 exWholeZ80_built he (by intro r hr; cases List.mem_singleton.1 hr; exact ⟨by decide, by decide⟩) (not_odd80 (by decide +kernel))
  rw [show (exReach z80 exZ80Pre).bytes.length = 4 by decide +kernel] at h
  exact h

/-- A call in a Thumb program. -/
def exWholeThumb : String := ".org 0x8000\nstart: MOV r0, #1\nBL work\nB start\nwork: BX lr\n"
def exThumbPre : List Stmt := [exStmt .directive [".org", "0x8000"] 1, exStmt .label ["start"] 2, exStmt .instr ["MOV", "r0", "#1"] 2]

theorem exWholeThumb_built : BuiltLine thumb {} 3 [exWholeThumb.toList] (exReach thumb exThumbPre) "BL".toList ["work".toList] (exObject thumb exWholeThumb) (exImage thumb exWholeThumb) :=
  built_of exThumbPre ["BL", "work"] 3 [exStmt .instr ["B", "start"] 4, exStmt .label ["work"] 5, exStmt .instr ["BX", "lr"] 5]
    (by decide +kernel) (by decide +kernel) (by decide +kernel) (by decide +kernel) (by decide +kernel) (by decide +kernel) (by decide +kernel) (by decide +kernel)

example : ∃ l off, (exObject thumb exWholeThumb).labels.lookup "work".toList = some l ∧ (l.org + l.base) % 2 = 0 ∧
    decodeBl (ofBytes false (window (exImage thumb exWholeThumb).bytes 2 2)) (ofBytes false (window (exImage thumb exWholeThumb).bytes 4 2)) = some ⟨.BL, [.dist 23 off]⟩ ∧
    0x8002 + 4 + off = l.org + l.base := by
  have h := C85_thumb_call exWholeThumb_built rfl (by decide) (by decide) (by decide) (by decide +kernel)
  rw [show (exReach thumb exThumbPre).bytes.length = 2 by decide +kernel, show (exReach thumb exThumbPre).pc = 0x8002 by decide +kernel] at h
  obtain ⟨l, off, h1, h2, h3, h4⟩ := h
  exact ⟨l, off, h1, h2, h3, by omega⟩

/-- A Game Boy cartridge, with the title given after the code. -/
def exWholeGb : String := ".fill 256\n.cartridge\nstart: CALL work\nJR start\nwork: LD A, 5\nRET\n.cartridge_title \"GAME\"\n"
def exGbPre : List Stmt := [exStmt .directive [".fill", "256"] 1, exStmt .directive [".cartridge"] 2, exStmt .label ["start"] 3]

theorem exWholeGb_built : BuiltLine (gameboyOn lr35902) {} 3 [exWholeGb.toList] (exReach (gameboyOn lr35902) exGbPre) "CALL".toList ["work".toList]
    (exObject (gameboyOn lr35902) exWholeGb) (exImage (gameboyOn lr35902) exWholeGb) :=
  built_of exGbPre ["CALL", "work"] 3 [exStmt .instr ["JR", "start"] 4, exStmt .label ["work"] 5, exStmt .instr ["LD", "A", "5"] 5, exStmt .instr ["RET"] 6,
      exStmt .directive [".cartridge_title", "\"GAME\""] 7]
    (by decide +kernel) (by decide +kernel) (by decide +kernel) (by decide +kernel) (by decide +kernel) (by decide +kernel) (by decide +kernel) (by decide +kernel)

example : BootCheck (exImage (gameboyOn lr35902) exWholeGb).bytes ∧ ∃ i, decodeGb (window (exImage (gameboyOn lr35902) exWholeGb).bytes 0x150 3) = some i ∧
    GbWritten (gbLinked (exReach (gameboyOn lr35902) exGbPre) (exObject (gameboyOn lr35902) exWholeGb) i.args) "CALL".toList ["work".toList] i := by
  have he : Emits (gameboyOn lr35902) (ctxOf (gameboyOn lr35902) (exReach (gameboyOn lr35902) exGbPre)) "CALL".toList ["work".toList] [0xCD, 0, 0]
      [{ label := "work".toList, size := 2, bitsSize := 16, offset := 1 }] := .handler rfl (Prod.ext (by decide +kernel) rfl)
  have hl : (exReach (gameboyOn lr35902) exGbPre).bytes.length = 0x150 := by decide +kernel
  have h := C85_gameboy exWholeGb_built he (by intro r hr; cases List.mem_singleton.1 hr; decide) (gbOdd_test (by decide +kernel)) (by rw [hl]; decide)
  rw [hl] at h
  exact h

/-- A jump back over other lines in a 6502 program. -/
def exWhole6502 : String := ".org $C000\nLDX #$05\nloop: DEX\nBNE loop\nRTS\n"
def ex6502Pre : List Stmt := [exStmt .directive [".org", "$C000"] 1, exStmt .instr ["LDX", "#$05"] 2, exStmt .label ["loop"] 3, exStmt .instr ["DEX"] 3]

theorem exWhole6502_built : BuiltLine mos6502 {} 3 [exWhole6502.toList] (exReach mos6502 ex6502Pre) "BNE".toList ["loop".toList] (exObject mos6502 exWhole6502) (exImage mos6502 exWhole6502) :=
  built_of ex6502Pre ["BNE", "loop"] 4 [exStmt .instr ["RTS"] 5]
    (by decide +kernel) (by decide +kernel) (by decide +kernel) (by decide +kernel) (by decide +kernel) (by decide +kernel) (by decide +kernel) (by decide +kernel)

example : ∃ l disp, (exObject mos6502 exWhole6502).labels.lookup "loop".toList = some l ∧ window (exImage mos6502 exWhole6502).bytes 3 2 = [0xD0, disp] ∧
    0xC003 + 2 + disp.toInt = l.org + l.base := by
  have h := C85_mos6502 exWhole6502_built (op := 0xD0) (m := "BNE") (by decide) (by decide +kernel) (by decide) (by decide +kernel) (by decide)
  rw [show (exReach mos6502 ex6502Pre).bytes.length = 3 by decide +kernel, show (exReach mos6502 ex6502Pre).pc = 0xC003 by decide +kernel] at h
  exact h

/-- An 8086 line whose label is seen by a row that then refuses it: the reference it leaves behind is replaced. -/
def exWhole8086 : String := "OUT port, AX\nport: RET\n"

theorem exWhole8086_built : BuiltLine i8086 {} 3 [exWhole8086.toList] (exReach i8086 []) "OUT".toList (["port", "AX"].map String.toList) (exObject i8086 exWhole8086) (exImage i8086 exWhole8086) :=
  built_of [] ["OUT", "port", "AX"] 1 [exStmt .label ["port"] 2, exStmt .instr ["RET"] 2]
    (by decide +kernel) (by decide +kernel) (by decide +kernel) (by decide +kernel) (by decide +kernel) (by decide +kernel) (by decide +kernel) (by decide +kernel)

example : ∃ used extra i, ["port", "AX"].map String.toList = used ++ extra ∧ (i.args = [] → extra = []) ∧
    I86Written (i86Linked (exReach i8086 []) (exObject i8086 exWhole8086)) "OUT".toList used i ∧ disasm86 (window (exImage i8086 exWhole8086).bytes 0 2) = some i := by
  have he : Emits i8086 (ctxOf i8086 (exReach i8086 [])) "OUT".toList (["port", "AX"].map String.toList) [0xE7, 0]
      [(byteSlot "port".toList).2.1, (byteSlot "port".toList).2.1] := .handler rfl (Prod.ext (by decide +kernel) rfl)
  have h := C85_i8086 exWhole8086_built he (by intro r hr; rcases List.mem_cons.1 hr with rfl | hr; · exact ⟨by decide, by decide⟩
                                               cases List.mem_singleton.1 hr; exact ⟨by decide, by decide⟩)
    (fun _ => not_inner86 (by decide +kernel)) (not_odd86 (by decide +kernel))
  rw [show (exReach i8086 []).bytes.length = 0 by decide +kernel] at h
  exact h

/-- Two labels in one line of a 68000 program. -/
def exWhole68 : String := "move.w first, second\nrts\nfirst: .dw 1\nsecond: .dw 2\n"

theorem exWhole68_built : BuiltLine mc68000 {} 3 [exWhole68.toList] (exReach mc68000 []) "move.w".toList (["first", "second"].map String.toList) (exObject mc68000 exWhole68) (exImage mc68000 exWhole68) :=
  built_of [] ["move.w", "first", "second"] 1 [exStmt .instr ["rts"] 2, exStmt .label ["first"] 3, exStmt .directive [".dw", "1"] 3,
      exStmt .label ["second"] 4, exStmt .directive [".dw", "2"] 4]
    (by decide +kernel) (by decide +kernel) (by decide +kernel) (by decide +kernel) (by decide +kernel) (by decide +kernel) (by decide +kernel) (by decide +kernel)

example : ∃ used extra i, ["first", "second"].map String.toList = used ++ extra ∧ (extra ≠ [] → M68Open i) ∧
    M68Written (m68Linked (exReach mc68000 []) (exObject mc68000 exWhole68)) "move.w".toList used i ∧ disasm68 (window (exImage mc68000 exWhole68).bytes 0 10) = some i := by
  have he : Emits mc68000 (ctxOf mc68000 (exReach mc68000 [])) "move.w".toList (["first", "second"].map String.toList) [0x33, 0xF9, 0, 0, 0, 0, 0, 0, 0, 0]
      [{ label := "first".toList, size := 4, bitsSize := 32, offset := 2 }, { label := "second".toList, size := 4, bitsSize := 32, offset := 6 }] :=
    .handler rfl (Prod.ext (by decide +kernel) rfl)
  have h := C85_mc68000 exWhole68_built he (by intro r hr; rcases List.mem_cons.1 hr with rfl | hr; · exact ⟨by decide, by decide⟩
                                               cases List.mem_singleton.1 hr; exact ⟨by decide, by decide⟩)
    (not_odd_of_test (by decide +kernel))
  rw [show (exReach mc68000 []).bytes.length = 0 by decide +kernel] at h
  exact h

example : disasm68 (window (exImage mc68000 exWhole68).bytes 0 10) = some (.move .word (.absL 12) (.absL 14)) := by decide +kernel

end Necro
