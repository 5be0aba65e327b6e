import Verif.Lemmas.I86Accept
import Verif.Lemmas.Line
/-!
# C68: 8086 instructions
-/

namespace Necro
open Spec

variable {c : Ctx} {t : Str} {rest : List Str} {blob : Bytes}

/-- C68: the code of a line without references is, for the processor, the instruction written. -/
theorem C68_decodes (hsy : c.sy = i8086.sy) (hpc : 0 ≤ c.pc) (h : Emits i8086 c t rest blob []) (ho : ¬ I86Odd (m68Number c) t rest) :
    ∃ used extra i, rest = used ++ extra ∧ (i.args = [] → extra = []) ∧ I86Written (m68Number c) t used i ∧ disasm86 blob = some i := by
  obtain ⟨r, ts, us, s, v, b, stale, own, hr⟩ := line_row h
  have hown : own = [] := (List.append_eq_nil_iff.1 hr.refs.symm).2
  rw [hr.code]
  exact line_decodes (number_reading hsy) hr hr.encs (reads_meets (encs_slots hpc hr.encs) hr.reads hown) ho

/-- C68: every form of the opcode map is accepted, however its operands are written, but for two forms of `MOV` (`C68_refused`). -/
theorem C68_accepts (hsy : c.sy = i8086.sy) (hpc : 0 ≤ c.pc) {op g : Nat} (hop : op < 256) (hg : g < 8) {name : String} {kinds : List I86Kind}
    (hs : shape86 op g = some (name, kinds)) (ht : eqNoCase t name.toList) (h : I86TakesAll (m68Number c) kinds rest) (hw : kinds ≠ [.ev, .iv])
    (ha : kinds = [.ov, .r16 0] → ∃ v x post, rest = ['['] :: v :: post ∧ m68Number c .data 8 v x) : ∃ blob, Emits i8086 c t rest blob [] := by
  have hacc := accepts_all hop
  simp only [opAccepts, List.all_eq_true, List.mem_range] at hacc
  have hacc := hacc g hg
  rw [hs] at hacc
  simp only at hacc
  have hcls : ∃ cls, I86Cls.Texts c cls rest ∧ accepts (i86Conds name.toList) cls = true := by
    by_cases hk : kinds = [.ov, .r16 0]
    · rw [if_pos hk] at hacc
      refine ⟨_, ?_, hacc⟩
      obtain ⟨v, x, post, hrest, hx⟩ := ha hk
      subst hk
      cases h with
      | cons h1 h2 =>
        cases h2 with
        | cons h2 h3 =>
          cases h3
          obtain ⟨cl, hm, h4⟩ := takes_cls hsy h2
          simp only [clsOf, List.mem_singleton] at hm
          subst hm
          refine .cons ?_ (.cons h4 .nil)
          obtain ⟨cl, hm, h5⟩ := takes_cls hsy h1
          simp only [clsOf, List.mem_singleton] at hm
          subst hm
          cases h5 with
          | dir hv hx' =>
            simp only [List.cons_append, List.nil_append, List.cons.injEq, true_and] at hrest
            obtain ⟨rfl, -⟩ := hrest
            exact .dir8 hv hx
    · rw [if_neg hk, if_neg hw] at hacc
      obtain ⟨cls, h1, h2⟩ := allCls_spec hsy hacc h
      exact ⟨cls, h1, h2⟩
  obtain ⟨cls, h1, h2⟩ := hcls
  have hkey : upper t = name.toList := by
    have : upper t = upper name.toList := ht
    rw [this]
    refine name_upper ?_
    intro e
    rw [e] at h2
    cases h2
  have hb : ∀ r ∈ i86Conds name.toList, r.1 % 256 < 8 ∨ r.1 ≤ 0xFF := by
    intro r hr
    obtain ⟨q, hq, e, -, -⟩ := conds_row (base := r.1) (args := r.2) hr
    rw [← e]
    exact (table_args q hq).2
  obtain ⟨b, hb⟩ := call_gives hsy hpc (t := t) h1 hb h2
  refine ⟨b, .handler (f := fun tokens => i86Call tokens (i86Conds name.toList)) ?_ hb⟩
  show (match i86Conds (upper t) with
    | [] => none
    | conds => some (InstrDef.handler fun tokens => i86Call tokens conds)) = _
  rw [hkey]
  cases hc : i86Conds name.toList with
  | nil => rw [hc] at h2; cases h2
  | cons a l => rfl

/-! ## examples -/

def exI86 : Ctx := ⟨0x100, [], i8086.sy, 0⟩

/-- `[BP]` -/
def bpTails : List Str → Bool
  | [] => true
  | p :: l => bpTails l && match l with
    | t :: q :: _ => !(p == ['['] && upper t == upper "BP".toList && q == [']'])
    | _ => true

/-- A test for lines that are not odd. -/
def notOdd86 (m : Str) (rest : List Str) : Bool :=
  bpTails rest && (["POP", "AAM", "AAD", "SHL", "SHR"].all fun n => upper m != upper n.toList) &&
  (upper m != upper "MOV".toList || ((rest.head? != some ['[']) && rest.all fun t => upper t != upper "AL".toList))

theorem bpTails_append {a b : List Str} (h : bpTails (a ++ b) = true) : bpTails b = true := by
  induction a with
  | nil => exact h
  | cons x a ih =>
    simp only [List.cons_append, bpTails, Bool.and_eq_true] at h
    exact ih h.1

theorem not_odd86 {value : M68Use → Nat → Str → Int → Prop} {m : Str} {rest : List Str} (h : notOdd86 m rest = true) : ¬ I86Odd value m rest := by
  simp only [notOdd86, Bool.and_eq_true, Bool.or_eq_true, bne_iff_ne, ne_eq, List.all_eq_true] at h
  obtain ⟨⟨h1, h2⟩, h3⟩ := h
  intro ho
  cases ho with
  | bp hr hb =>
    subst hr
    have := bpTails_append h1
    have hb : upper _ = upper "BP".toList := hb
    simp [bpTails, hb] at this
  | pop hm _ => exact h2 "POP" (by simp) hm
  | store hm hr _ =>
    rcases h3 with h3 | ⟨h3, -⟩
    · exact h3 hm
    · rw [hr] at h3
      exact h3 rfl
  | adjust hm _ =>
    rcases hm with hm | hm
    · exact h2 "AAM" (by simp) hm
    · exact h2 "AAD" (by simp) hm
  | shift hm _ _ _ =>
    rcases hm with hm | hm
    · exact h2 "SHL" (by simp) hm
    · exact h2 "SHR" (by simp) hm
  | @negative pre r v post x hm _ hr hn _ _ =>
    rcases h3 with h3 | ⟨-, h3⟩
    · exact h3 hm
    · obtain ⟨s, hs, e⟩ := hn
      cases hs
      exact h3 r hr e

/-- `add cx, [bx + si - 8]` -/
example : ∃ used extra i, ["cx", "[", "bx", "+", "si", "-", "8", "]"].map String.toList = used ++ extra ∧ (i.args = [] → extra = []) ∧
    I86Written (m68Number exI86) "add".toList used i ∧ disasm86 [0x03, 0x88, 0xF8, 0xFF] = some i :=
  C68_decodes (c := exI86) rfl (by decide) (.handler rfl (Prod.ext (by decide +kernel) rfl)) (not_odd86 (by decide +kernel))

example : disasm86 [0x03, 0x88, 0xF8, 0xFF] = some ⟨"ADD", [.r16 1, .mem true 0 0xFFF8]⟩ := by decide +kernel

/-- `shl dx, 1` is no odd line. -/
example : ∃ used extra i, ["dx", "1"].map String.toList = used ++ extra ∧ (i.args = [] → extra = []) ∧
    I86Written (m68Number exI86) "shl".toList used i ∧ disasm86 [0xD1, 0xE2] = some i := by
  refine C68_decodes (c := exI86) rfl (by decide) (.handler rfl (Prod.ext (by decide +kernel) rfl)) ?_
  have h1 : m68Number exI86 .data 8 "1".toList 1 := ⟨true, ⟨1, by decide +kernel, by decide +kernel⟩, by unfold M68Fits; decide⟩
  have hno : ∀ s ∈ ["BP", "POP", "MOV", "AAM", "AAD"], ¬ eqNoCase "shl".toList s.toList := by unfold eqNoCase; decide +kernel
  intro ho
  cases ho with
  | bp hr hb =>
    have := congrArg List.length hr
    simp at this
    omega
  | pop hm _ => exact hno "POP" (by simp) hm
  | store hm _ _ => exact hno "MOV" (by simp) hm
  | adjust hm _ => exact hm.elim (hno "AAM" (by simp)) (hno "AAD" (by simp))
  | @shift o ts post hm ht hr hn =>
    refine hn ⟨"1".toList, ?_, number_free rfl h1, h1⟩
    have hlen := congrArg List.length hr
    have hclosed : [']'] ∉ ["dx", "1"].map String.toList := by decide
    cases ht with
    | r8 | r16 | seg | imm8 | imm16 | rel8 | rel16 | far =>
      simp only [List.map_cons, List.map_nil, List.cons_append, List.nil_append, List.cons.injEq] at hr
      exact hr.2.symm
    | mem | plus | minus | addr => exact absurd (by rw [hr]; simp) hclosed
  | negative hm _ _ _ _ _ => exact hno "MOV" (by simp) hm

/-- `les di, [0x1234]` -/
example : ∃ blob, Emits i8086 exI86 "les".toList ["di".toList, ['['], "0x1234".toList, [']']] blob [] :=
  C68_accepts (c := exI86) (op := 0xC4) (g := 0) rfl (by decide) (by decide) (by decide) rfl (by unfold eqNoCase; decide +kernel)
    (.cons (ts := ["di".toList]) (.reg16 (n := 7) (.inr (.inl rfl)) ⟨"DI", rfl, by unfold eqNoCase; decide +kernel⟩)
      (.cons (ts := [['['], "0x1234".toList, [']']]) (us := [])
        (.addr16 (x := 0x1234) (by simp) (noReg_iff.2 (by decide +kernel)) ⟨false, ⟨0x1234, by decide +kernel, by decide +kernel⟩, by unfold M68Fits; decide⟩) .nil))
    (by decide) (fun h => by simp at h)

/-- Each of the odd lines: what the processor makes of the code. -/
theorem C68_odd :
    -- mov ax, [bp]: the next two bytes of the program become its address
    (lineBytes i8086 exI86 "mov".toList (["ax", "[", "bp", "]"].map String.toList)).map (fun b => (disasm86 b, disasm86 (b ++ [0x34, 0x12]))) =
      some (none, some ⟨"MOV", [.r16 0, .addr true 0x1234]⟩) ∧
    -- pop [bx]
    (lineBytes i8086 exI86 "pop".toList (["[", "bx", "]"].map String.toList)).map disasm86 = some none ∧
    -- mov [bx], 5: the number becomes the address
    (lineBytes i8086 exI86 "mov".toList (["[", "bx", "]", "5"].map String.toList)).map (fun b => (disasm86 b, disasm86 (b ++ [0x90]))) =
      some (none, some ⟨"MOV", [.mem false 5 0, .imm8 0x90]⟩) ∧
    -- aam, aam 10
    (lineBytes i8086 exI86 "aam".toList []).map disasm86 = some none ∧
    (lineBytes i8086 exI86 "aam".toList (["10"].map String.toList)).map disasm86 = some none ∧
    -- shl ax, 4
    (lineBytes i8086 exI86 "shl".toList (["ax", "4"].map String.toList)).bind disasm86 = some ⟨"SHL", [.r16 0, .imm8 1]⟩ ∧
    -- mov al, [-1]
    (lineBytes i8086 exI86 "mov".toList (["al", "[", "-1", "]"].map String.toList)).bind disasm86 = some ⟨"MOV", [.r8 0, .addr false 0xFF]⟩ := by
  decide +kernel

/-- Instructions the assembler refuses although it knows their parts. -/
theorem C68_refused (b : Bytes) (rels : List Reloc) :
    -- mov [0x1234], ax
    ¬ Emits i8086 exI86 "mov".toList (["[", "0x1234", "]", "ax"].map String.toList) b rels ∧
    -- mov al, [0x1234]
    ¬ Emits i8086 exI86 "mov".toList (["al", "[", "0x1234", "]"].map String.toList) b rels ∧
    -- mov [bx], 0x1234
    ¬ Emits i8086 exI86 "mov".toList (["[", "bx", "]", "0x1234"].map String.toList) b rels ∧
    -- mov bx, [0x1234]
    ¬ Emits i8086 exI86 "mov".toList (["bx", "[", "0x1234", "]"].map String.toList) b rels ∧
    -- add bx, 5
    ¬ Emits i8086 exI86 "add".toList (["bx", "5"].map String.toList) b rels ∧
    -- mul bl
    ¬ Emits i8086 exI86 "mul".toList (["bl"].map String.toList) b rels :=
  ⟨lineBytes_none (by decide +kernel) b rels, lineBytes_none (by decide +kernel) b rels, lineBytes_none (by decide +kernel) b rels,
    lineBytes_none (by decide +kernel) b rels, lineBytes_none (by decide +kernel) b rels, lineBytes_none (by decide +kernel) b rels⟩

end Necro
