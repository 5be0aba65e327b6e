import Verif.Lemmas.PpcAccept
import Verif.Lemmas.Line
/-!
# C73, C74: PowerPC instructions
-/

namespace Necro
open Spec

variable {c : Ctx} {t : Str} {rest : List Str} {blob : Bytes}

/-- C73: the code of a line without references is one word, and for the processor it is the instruction written. -/
theorem C73_decodes (h : Emits ppc c t rest blob []) (ho : ¬ PpcOdd t rest) :
    blob.length = 4 ∧ ∃ i, decodePpcBytes blob = some i ∧ PpcWritten (ppcNumber c) t rest i := by
  obtain ⟨r, vals, f, op, hrun, hm⟩ := ppc_line h ho
  obtain ⟨v, hv, hb⟩ := hrun.word
  have hlen : blob.length = 4 := by rw [hb, wordBytes_length]
  refine ⟨hlen, ?_⟩
  rw [decodePpcBytes_word hlen, hb]
  obtain ⟨hl, hl'⟩ := hrun.reads.lengths
  obtain ⟨i, h1, h2⟩ := ppc_row_decodes (value := ppcNumber c) hm.oper hm.target hm.ok hm.arity hm.name (word_of_bytes hv) hl' hl (by
    intro i x tok v o hx ht hv ho
    obtain ⟨r, hr, a, b, hrels⟩ := reads_get hrun.reads hx ht hv
    have hitem := hm.items
    rcases item_read ho (hitem.each x (List.mem_of_getElem? hx)).1 (hitem.regs x (List.mem_of_getElem? hx)) (matchAll_get hrun.pats hx ht) hr with ⟨-, h⟩ | ⟨-, h, -⟩
    · exact h
    · rw [h] at hrels
      simp at hrels)
  exact ⟨i, h1, f, hm.form, h2⟩

/-- The operand number `j` of the form is a general register (and not one of those that may be missing). -/
def PpcGpr (f : PpcForm) (j : Nat) : Prop :=
  ∃ op ∈ ppcOps, op.name = f.target ∧ ∃ (k : Nat) (fl : PpcField), op.fields[k]? = some fl ∧ fl.kind = .gpr ∧ f.args[k]? = some (.op j)

/-- C74: every way to write an instruction, with registers other than `r0` and with numbers, assembles to it, but for the lines
of `ppcOddLines` and `ppcNever`. -/
theorem C74_accepts {f : PpcForm} (hf : f ∈ ppcForms) (ho : (f.name, f.arity) ∉ ppcOddLines) (hn : (f.name, f.arity) ∉ ppcNever) {i : String × List Nat}
    (hw : PpcWrites (ppcNumber c) f t rest i) (h0 : ∀ j tok, rest[j]? = some tok → PpcGpr f j → ¬ eqNoCase tok "r0".toList) :
    ∃ blob, Emits ppc c t rest blob [] ∧ decodePpcBytes blob = some i := by
  have hw' := hw
  cases hw' with
  | @mk op vs hop htarget ht hlen hfill =>
    obtain ⟨g, hg, htg, r, hr, op', hm, hpre⟩ := form_row hf ho hn ht
    cases ppc_op_unique hop hm.oper (htarget.trans hm.target.symm)
    have hl : rest.length = r.2.2.2.length := hlen.trans hm.arity
    have hitems := hm.items
    have hok := hm.ok
    simp only [ppcOpOk, Bool.and_eq_true, List.all_eq_true, List.mem_range, List.any_eq_true] at hok
    obtain ⟨⟨⟨-, hargs⟩, -⟩, hcov⟩ := hok
    obtain ⟨hpats, vals, hreads, hfields⟩ := reads_build (c := c) hl (by
      intro i x hx
      obtain ⟨a, ha, ha'⟩ := hcov i (List.getElem?_eq_some_iff.1 hx).1
      cases a with
      | num n => cases ha'
      | op j =>
        simp only [Nat.beq_eq] at ha'
        subst ha'
        obtain ⟨k, fl, tok, n, e1, e2, e3, e4⟩ := fill_get hfill ha
        obtain ⟨x', g1, g2, g3, g4⟩ := argsOk_get hargs e1 e2
        rw [hx] at g1
        cases g1
        obtain ⟨hw, -, -⟩ := hitems.each x (List.mem_of_getElem? hx)
        have : fl.hi - fl.lo + 1 = x.2.1 := by omega
        rw [this] at e4
        obtain ⟨q1, v, q2, -, q3⟩ := item_accepts (lo := x.1) g2 hw (hitems.regs x (List.mem_of_getElem? hx)) e4 (fun hg => h0 i tok e3 ⟨op, hop, htarget, k, fl, e1, hg, e2⟩)
        exact ⟨tok, e3, q1, v, q2, q3⟩)
    obtain ⟨v, hv⟩ := packBits_ok _ hfields (r.2.1 : Int)
    have hrun : PpcRun c rest (wordBytes true 4 v) [] r vals := by
      refine ⟨hpats, fun x hx => ?_, hreads, v, hv, rfl⟩
      rw [← Bool.not_eq_true]
      intro h
      have := matchAll_length h
      simp only [ppcPats, List.length_map] at this
      exact hpre x hx (by omega)
    have hne : g.2 ≠ [] := by intro h; rw [h] at hr; cases hr
    have hem : Emits ppc c t rest (wordBytes true 4 v) [] := .handler (ppc_instr hg hne htg) (ppcCall_of hrun hr)
    refine ⟨_, hem, ?_⟩
    have hblob : (wordBytes true 4 v).length = 4 := wordBytes_length _ _ _
    obtain ⟨i', h1, h2⟩ := ppc_row_decodes (value := ppcNumber c) hm.oper hm.target hm.ok hm.arity hm.name (word_of_bytes hv) hreads.lengths.2 hl (by
      intro i x tok v o hx ht hv ho
      obtain ⟨r, hr, a, b, hrels⟩ := reads_get hreads hx ht hv
      rcases item_read ho (hitems.each x (List.mem_of_getElem? hx)).1 (hitems.regs x (List.mem_of_getElem? hx)) (matchAll_get hpats hx ht) hr with ⟨-, h⟩ | ⟨-, h, -⟩
      · exact h
      · rw [h] at hrels
        simp at hrels)
    rw [decodePpcBytes_word hblob, h1, writes_unique h2 hw]

/-- C74: `r0` is refused as a general register, except where it may also be missing. -/
theorem C74_r0 {f : PpcForm} (hf : f ∈ ppcForms) (ht : eqNoCase t f.name.toList) (hl : rest.length = f.arity) (ho : ¬ PpcOdd t rest) {j : Nat} {tok : Str}
    (hj : rest[j]? = some tok) (hg : PpcGpr f j) (h0 : eqNoCase tok "r0".toList) {rels : List Reloc} : ¬ Emits ppc c t rest blob rels := by
  intro h
  obtain ⟨r, vals, f', op, hrun, hm⟩ := ppc_line h ho
  have hff : f' = f := ppc_form_unique hm.form hf (((show upper t = upper f'.name.toList from hm.name).symm).trans ht) (by
    rw [hm.arity, ← hl, hrun.reads.lengths.1])
  subst hff
  obtain ⟨op', hop, htarget, k, fl, e1, e2, e3⟩ := hg
  cases ppc_op_unique hm.oper hop (hm.target.trans htarget.symm)
  have hok := hm.ok
  simp only [ppcOpOk, Bool.and_eq_true] at hok
  obtain ⟨x, g1, g2, -⟩ := argsOk_get hok.1.1.2 e1 e3
  rw [e2] at g2
  have hk : x.2.2 = .greg := by
    cases hx : x.2.2 <;> rw [hx] at g2 <;> first | rfl | cases g2
  have hp := matchAll_get hrun.pats g1 hj
  rw [hk] at hp
  obtain ⟨n, hn, hne, he⟩ := greg_pat.1 hp
  exact hne (ppc_name_eq hn (by decide) he h0)

/-- C74: the names of `ppcNever`, with these numbers of operands, are in the table but never assemble. -/
theorem C74_never {name : String} {n : Nat} (hn : (name, n) ∈ ppcNever) (ht : eqNoCase t name.toList) (hl : rest.length = n) {rels : List Reloc} :
    ¬ Emits ppc c t rest blob rels := by
  intro h
  rw [← ppc_never] at hn
  obtain ⟨g', hg', hn⟩ := List.mem_flatMap.1 hn
  simp only [ppcNeverOf, List.mem_map, List.mem_filter, List.all_eq_true] at hn
  obtain ⟨m, ⟨-, hdead⟩, he⟩ := hn
  simp only [Prod.mk.injEq] at he
  obtain ⟨rfl, rfl⟩ := he
  obtain ⟨g, hg, htg, r, hr, -, vals, hrun⟩ := ppc_row h
  cases ppc_group_unique hg hg' ((show upper t = upper g.1.toList from htg).symm.trans ht)
  have := hdead r hr
  rw [run_dead hrun, Bool.or_false, Bool.not_eq_true', ← Bool.not_eq_true, Nat.beq_eq] at this
  exact this (by rw [← hl, hrun.reads.lengths.1])

/-! ## What is wrong -/

/-- C73: a line writes at most one instruction. -/
theorem C73_unique {i j : String × List Nat} (h : PpcWritten (ppcNumber c) t rest i) (h' : PpcWritten (ppcNumber c) t rest j) : i = j := by
  obtain ⟨f, hf, h⟩ := h
  obtain ⟨f', hf', h'⟩ := h'
  have : f = f' := by
    cases h with
    | mk _ _ a b _ =>
      cases h' with
      | mk _ _ a' b' _ => exact ppc_form_unique hf hf' ((show upper t = upper f.name.toList from a).symm.trans a') (b.symm.trans b')
  subst this
  exact writes_unique h h'

set_option maxRecDepth 1000000 in
/-- C73: `bctr` writes `bcctr 20, 0`, branch always, but is assembled as `bcctr 0, 0`, a branch on a condition. -/
theorem C73_bctr : PpcWritten (ppcNumber c) "bctr".toList [] ("bcctr", [20, 0, 0]) ∧
    Emits ppc c "bctr".toList [] [0x4c, 0, 0x04, 0x20] [] ∧ decodePpcBytes [0x4c, 0, 0x04, 0x20] = some ("bcctr", [0, 0, 0]) ∧
    ¬ PpcWritten (ppcNumber c) "bctr".toList [] ("bcctr", [0, 0, 0]) := by
  have h : PpcWritten (ppcNumber c) "bctr".toList [] ("bcctr", [20, 0, 0]) :=
    ⟨⟨"bctr", "bcctr", [.num 20, .num 0, .num 0]⟩, by decide +kernel,
      .mk (op := ⟨"bcctr", [(31, 26, 19), (15, 13, 0), (10, 1, 528), (0, 0, 0)], [ppcU 25 21, ppcU 20 16, ppcU 12 11]⟩) (by decide +kernel) rfl rfl rfl
        (.num (.num (.num .nil)))⟩
  refine ⟨h, ?_, by decide +kernel, fun h' => by cases C73_unique h h'⟩
  exact .handler (ppc_instr (g := ("bctr", [(0x4C000420, some [(21, 5, .num), (16, 5, .num)]), (0x4E800420, none), (0x4E800420, some [(11, 2, .num)])]))
    (by decide +kernel) (by simp) rfl)
    (ppcCall_of (name := "bctr") (pre := []) (r := ("bctr", 0x4C000420, [[(21, 5, .num), (16, 5, .num)]], [])) (vals := [])
      ⟨rfl, fun x hx => by simp only [List.mem_singleton] at hx; subst hx; rfl, .nil, 0x4C000420, by decide +kernel, by decide +kernel⟩ (by decide +kernel))

set_option maxRecDepth 1000000 in
/-- C73: `mftb r3` writes a read of time base register 268, but is assembled with register number 0. -/
theorem C73_mftb : PpcWritten (ppcNumber c) "mftb".toList ["r3".toList] ("mftb", [3, 268]) ∧
    Emits ppc c "mftb".toList ["r3".toList] [0x7c, 0x60, 0x02, 0xe6] [] ∧ decodePpcBytes [0x7c, 0x60, 0x02, 0xe6] = some ("mftb", [3, 0]) ∧
    ¬ PpcWritten (ppcNumber c) "mftb".toList ["r3".toList] ("mftb", [3, 0]) := by
  have h : PpcWritten (ppcNumber c) "mftb".toList ["r3".toList] ("mftb", [3, 268]) :=
    ⟨⟨"mftb", "mftb", [.op 0, .num 268]⟩, by decide +kernel,
      .mk (op := ⟨"mftb", [(31, 26, 31), (10, 1, 371), (0, 0, 0)], [ppcD, ⟨.spr, 20, 11⟩]⟩) (by decide +kernel) rfl rfl rfl
        (.op rfl (.gpr (by decide) rfl) (.num .nil))⟩
  refine ⟨h, ?_, by decide +kernel, fun h' => by cases C73_unique h h'⟩
  exact .handler (ppc_instr (g := ("mftb", [(0x7C0002E6, some [(21, 5, .greg), (11, 10, .unset)]), (0x7C0C42E6, some [(21, 5, .greg)])]))
    (by decide +kernel) (by simp) rfl) rfl

/-! ## Examples -/

def exPpc : Ctx := ctxOf ppc {}

theorem not_ppcOdd (h : (ppcOddLines.all fun p => !(upper t == upper p.1.toList && rest.length == p.2)) = true) : ¬ PpcOdd t rest := by
  rintro ⟨p, hp, h1, h2⟩
  have := List.all_eq_true.1 h p hp
  rw [show upper t = upper p.1.toList from h1, h2] at this
  simp at this

/-- `addi r3, r4, -5` -/
example : ∃ i, decodePpcBytes [0x38, 0x64, 0xff, 0xfb] = some i ∧ PpcWritten (ppcNumber exPpc) "addi".toList (["r3", "r4", "-5"].map String.toList) i :=
  (C73_decodes (c := exPpc) (.handler rfl (Prod.ext (by decide +kernel) (by decide +kernel))) (not_ppcOdd (by decide +kernel))).2

example : decodePpcBytes [0x38, 0x64, 0xff, 0xfb] = some ("addi", [3, 4, 0xfffb]) := by decide +kernel

/-- `MFLR R5` -/
example : ∃ i, decodePpcBytes [0x7c, 0xa8, 0x02, 0xa6] = some i ∧ PpcWritten (ppcNumber exPpc) "MFLR".toList ["R5".toList] i :=
  (C73_decodes (c := exPpc) (.handler rfl (Prod.ext (by decide +kernel) (by decide +kernel))) (not_ppcOdd (by decide +kernel))).2

example : decodePpcBytes [0x7c, 0xa8, 0x02, 0xa6] = some ("mfspr", [5, 8]) := by decide +kernel

theorem exPpc_imm : PpcText (ppcNumber exPpc) .signed 16 "0x10".toList 16 :=
  .value (by decide) (by rintro ⟨n, hn, h | h⟩ <;> simp [ppcName] at h)
    ⟨16, ⟨false, ⟨16, by decide +kernel, by decide +kernel⟩, by simp only [ppcUse]; unfold M68Fits; decide⟩, by decide⟩

theorem exPpc_addi {r : Str} {n : Nat} (hn : n < 32) (h : eqNoCase r (ppcName 'r' n)) :
    PpcWrites (ppcNumber exPpc) ⟨"addi", "addi", [.op 0, .op 1, .op 2]⟩ "ADDI".toList [r, ['0'], "0x10".toList] ("addi", [n, 0, 16]) :=
  .mk (op := ⟨"addi", [(31, 26, 14)], [ppcD, ppcA0, ⟨.signed, 15, 0⟩]⟩) (by decide +kernel) rfl rfl rfl
    (.op rfl (.gpr hn h) (.op rfl .zero (.op rfl exPpc_imm .nil)))

/-- `ADDI r3, 0, 0x10` is accepted. -/
example : ∃ blob, Emits ppc exPpc "ADDI".toList ["r3".toList, ['0'], "0x10".toList] blob [] ∧ decodePpcBytes blob = some ("addi", [3, 0, 16]) :=
  C74_accepts (f := ⟨"addi", "addi", [.op 0, .op 1, .op 2]⟩) (by decide +kernel) (by decide +kernel) (by decide +kernel) (exPpc_addi (n := 3) (by decide) rfl) (by
    rintro j tok hj ⟨op, hop, hname, k, fl, h1, h2, h3⟩ h0
    match j, hj with
    | 0, hj => cases hj; exact absurd h0 (by unfold eqNoCase; decide)
    | 1, hj => cases hj; exact absurd h0 (by unfold eqNoCase; decide)
    | 2, hj => cases hj; exact absurd h0 (by unfold eqNoCase; decide))

theorem exPpc_gpr : PpcGpr ⟨"addi", "addi", [.op 0, .op 1, .op 2]⟩ 0 :=
  ⟨⟨"addi", [(31, 26, 14)], [ppcD, ppcA0, ⟨.signed, 15, 0⟩]⟩, by decide +kernel, rfl, 0, _, rfl, rfl, rfl⟩

/-- `ADDI r0, 0, 0x10` is refused, though it writes an instruction. -/
example : PpcWritten (ppcNumber exPpc) "ADDI".toList ["r0".toList, ['0'], "0x10".toList] ("addi", [0, 0, 16]) ∧
    ¬ Emits ppc exPpc "ADDI".toList ["r0".toList, ['0'], "0x10".toList] blob [] :=
  ⟨⟨_, by decide +kernel, exPpc_addi (by decide) rfl⟩,
    C74_r0 (t := "ADDI".toList) (f := ⟨"addi", "addi", [.op 0, .op 1, .op 2]⟩) (by decide +kernel) rfl rfl
      (not_ppcOdd (t := "ADDI".toList) (rest := ["r0".toList, ['0'], "0x10".toList]) (by decide +kernel)) (j := 0) rfl exPpc_gpr rfl⟩

/-- `cmp` with four operands never assembles. -/
example : ¬ Emits ppc exPpc "cmp".toList (["0", "0", "r3", "r4"].map String.toList) blob [] :=
  C74_never (name := "cmp") (n := 4) (by decide +kernel) rfl rfl

end Necro
