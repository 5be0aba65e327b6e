import Verif.Props.Intel8086
import Verif.Lemmas.I86Link
/-!
# C69: references to labels in the 8086 assembler
-/

namespace Necro
open Spec

/-- What a token stands for in the program `s'`, seen from an instruction assembled in state `s`: a number, or the
address of a label, which must fit the field of `n` bits.  A distance counts from the end of the instruction, which is
its opcode and the field. -/
def i86Linked (s s' : St) (use : M68Use) (n : Nat) (tok : Str) (x : Int) : Prop :=
  m68Number (ctxOf i8086 s) use n tok x ∨ ((∀ y dec, ¬ TokenValue i8086.sy s.labels tok y dec) ∧ ∃ l, s'.labels.lookup tok = some l ∧
    if use = .pc then x = l.org + l.base - (s.pc + 1 + (n / 8 : Nat)) ∧ -(2 ^ (n - 1)) ≤ x ∧ x < 2 ^ (n - 1) else x = l.org + l.base ∧ 0 ≤ x ∧ x < 2 ^ n)

variable {s s1 s2 : St} {t : Str} {rest : List Str} {blob : Bytes} {rels : List Reloc}

theorem linked_reading : I86Reading (ctxOf i8086 s) (i86Linked s s1) := by
  have hn := number_reading (c := ctxOf i8086 s) rfl
  refine ⟨?_, ⟨hn.three.1, .inl hn.three.2⟩, ?_, ?_⟩
  · intro t x h
    obtain ⟨h1, y, h2, h3⟩ := hn.num t x h
    exact ⟨h1, y, .inl h2, h3⟩
  · rintro t y (h | ⟨-, l, -, h⟩)
    · exact hn.range t y h
    · rw [if_neg nofun] at h
      omega
  · rintro t y (h | ⟨h0, l, hl, h⟩) h1
    · exact .inl (hn.wide t y h h1)
    · rw [if_neg nofun] at h
      exact .inr ⟨h0, l, hl, by rw [if_neg nofun]; omega⟩

/-- What is known of a line with a reference. -/
theorem i86_reference (hpc : 0 ≤ s.pc) (hprog : InProgram i8086 s t rest s1) (hem : Emits i8086 (ctxOf i8086 s) t rest blob rels) (hne : rels ≠ [])
    (hin : ¬ I86Inner t rest) {value : M68Use → Nat → Str → Int → Prop} (ho : ¬ I86Odd value t rest) :
    ∃ r ts us sl v b stale own p tail, I86Row (ctxOf i8086 s) t rest blob rels r ts us sl v b stale own ∧ sl = [p] ∧ p.2.1 ∈ rels ∧ I86Place (ctxOf i8086 s) p ∧
      (∀ y dec, ¬ TokenValue i8086.sy s.labels p.2.1.label y dec) ∧ blob = BitVec.ofNat 8 (rowOp r.1) :: (wordBytes false p.2.1.size 0 ++ tail) ∧
      Recorded s1 s.bytes.length blob p.2.1 ∧ (r.2.2 = [.jb] ∨ r.2.2 = [.jv] → p.1 = .pc ∧ tail = [] ∧ ts = [p.2.1.label]) ∧ (∃ a ∈ r.2.2, a.wide = true) ∧
      ∀ y, I86Encs (ctxOf i8086 s) (rowModrm r.1) false r.2.2 ts [p] [y] (wordBytes false p.2.1.size y ++ tail) := by
  obtain ⟨r, ts, us, sl, v, b, stale, own, hr⟩ := line_row hem
  have hodd : r.1 ∉ oddRows := fun hm => ho (hr.odd hm value)
  have hown := own_ne (c := ctxOf i8086 s) hpc hr hne
  obtain ⟨p, tail, h1, h2, h3, h4, h5, h6, h7, h8⟩ := row_reference (c := ctxOf i8086 s) hpc hr hown hodd hin
  have hrefs := hr.refs
  rw [h2] at hrefs
  have hcode := hr.code
  rw [h5] at hcode
  have hR : Recorded s1 s.bytes.length blob p.2.1 := by
    refine hprog.recordedLast (by rw [hrefs] at hem; exact hem) ?_ h3.pos
    rw [h3.offset, hcode]
    simp [wordBytes_length]
    omega
  exact ⟨r, ts, us, sl, v, b, stale, own, p, tail, hr, h1, by rw [hrefs]; simp, h3, h4, hcode, hR, h6, h7, h8⟩

theorem place_range {c : Ctx} {p : M68Slot} (hpc : 0 ≤ c.pc) (hp : I86Place c p) (x : Int) :
    (RefRange p.2.1 (x - p.2.1.relative) ∧ (p.2.1.relative = 0 → 0 ≤ x)) ↔
      if p.1 = .pc then -(2 ^ (p.2.1.bitsSize - 1)) ≤ x - (c.pc + 1 + p.2.1.size) ∧ x - (c.pc + 1 + p.2.1.size) < 2 ^ (p.2.1.bitsSize - 1)
      else 0 ≤ x ∧ x < 2 ^ p.2.1.bitsSize := by
  unfold RefRange
  by_cases h : p.1 = .pc
  · rw [if_pos h, hp.pc h, if_pos (by omega)]
    exact ⟨fun h => h.1, fun h => ⟨h, fun e => by omega⟩⟩
  · rw [if_neg h, hp.abs h]
    simp
    exact And.comm

/-- C69: in a linked program the code of a line with a label is, for the processor, the instruction written, the label standing for its address or,
in jumps and calls, for its distance from the next instruction. -/
theorem C69_linked (hpc : 0 ≤ s.pc) (hprog : InProgram i8086 s t rest s1) (hem : Emits i8086 (ctxOf i8086 s) t rest blob rels) (hne : rels ≠ [])
    (hin : ¬ I86Inner t rest) (ho : ¬ I86Odd (i86Linked s s1) t rest)
    (hplain : ∀ r ∈ rels, r.label ≠ [] ∧ ∀ ch ∈ r.label, formulaChar ch = false)
    (hlink : LinksClear i8086 s1 s2 s.bytes.length blob.length (s.bytes.length + 1)) :
    ∃ used extra i, rest = used ++ extra ∧ (i.args = [] → extra = []) ∧ I86Written (i86Linked s s1) t used i ∧
      disasm86 (window s2.bytes s.bytes.length blob.length) = some i := by
  obtain ⟨r, ts, us, sl, v, b, stale, own, p, tail, hr, rfl, hmem, hp, hnum, hcode, hR, -, -, hall⟩ := i86_reference hpc hprog hem hne hin ho
  obtain ⟨h1, h2⟩ := hplain _ hmem
  have hlen : (wordBytes false p.2.1.size 0).length = p.2.1.size := wordBytes_length ..
  obtain ⟨l, hl, hrg, hneg, -, hwin⟩ := linked_instr rfl (by rw [hp.offset]; exact hlink) hR hp.bits (by
      rw [hp.offset, hcode]
      have : window (BitVec.ofNat 8 (rowOp r.1) :: (wordBytes false p.2.1.size 0 ++ tail)) 1 p.2.1.size = wordBytes false p.2.1.size 0 := by
        unfold window
        rw [List.drop_succ_cons, List.drop_zero, List.take_append_of_le_length (by omega), List.take_of_length_le (by omega)]
      rw [this]
      show ofBytes false _ = 0
      have := ofBytes_wordBytes false p.2.1.size 0
      rw [Int.zero_emod] at this
      omega) h1 h2
  have hrange := (place_range hpc hp (l.org + l.base)).1 ⟨hrg, hneg⟩
  have hconv : converted p.2.1 (l.org + l.base - p.2.1.relative) = l.org + l.base - p.2.1.relative := by
    unfold converted
    rw [hp.filter]
  have hcut : window s2.bytes s.bytes.length blob.length =
      BitVec.ofNat 8 (rowOp r.1) :: (wordBytes false p.2.1.size (l.org + l.base - p.2.1.relative) ++ tail) := by
    rw [hwin, hconv, hp.offset, hcode, Nat.add_comm 1 p.2.1.size]
    show _ ++ wordBytes false _ _ ++ _ = _
    rw [List.drop_succ_cons, List.drop_append_of_le_length (by omega), List.drop_of_length_le (by omega)]
    simp
  rw [hcut]
  refine line_decodes linked_reading hr (hall _) (.cons (x := l.org + l.base - p.2.1.relative) (.inr ⟨hnum, l, hl, ?_⟩) rfl .nil) ho
  have h8 : p.2.1.bitsSize / 8 = p.2.1.size := by rw [hp.size]; omega
  by_cases hpcs : p.1 = .pc
  · rw [if_pos hpcs] at hrange ⊢
    rw [hp.pc hpcs, h8]
    exact ⟨rfl, hrange⟩
  · rw [if_neg hpcs] at hrange ⊢
    rw [hp.abs hpcs, Int.sub_zero]
    exact ⟨rfl, hrange⟩

/-! ## Jumps -/

/-- The jumps, loops and calls. -/
def i86Jumps : List String :=
  ["JO", "JNO", "JB", "JNB", "JZ", "JNZ", "JBE", "JA", "JS", "JNS", "JPE", "JPO", "JL", "JGE", "JLE", "JG", "LOOPNZ", "LOOPZ", "LOOP", "JCXZ", "JMP", "CALL"]

theorem table_jumps : ∀ r ∈ i86Table, r.1 ∉ oddRows → (∃ a ∈ r.2.2, a.wide = true) → r.2.1 ∈ i86Jumps → r.2.2 = [.jb] ∨ r.2.2 = [.jv] := by decide +kernel

/-- All jumps of the opcode map are in the list. -/
theorem jumps_all : ∀ op < 256, ∀ g < 8, ∀ p, shape86 op g = some p → (p.2 = [.jb] ∨ p.2 = [.jv]) → p.1 ∈ i86Jumps := by
  have : ∀ op < 256, ∀ g < 8, ((shape86 op g).all fun p => !(decide (p.2 = [.jb]) || decide (p.2 = [.jv])) || decide (p.1 ∈ i86Jumps)) = true := by decide +kernel
  intro op ho g hg p hp hk
  have h := this op ho g hg
  rw [hp] at h
  simp only [Option.all_some, Bool.or_eq_true, Bool.not_eq_true', Bool.or_eq_false_iff, decide_eq_false_iff_not, decide_eq_true_eq] at h
  rcases h with ⟨h1, h2⟩ | h
  · rcases hk with hk | hk
    · exact absurd hk h1
    · exact absurd hk h2
  · exact h

theorem jumps_upper : ∀ a ∈ i86Jumps, upper a.toList = a.toList := by decide +kernel

theorem upper_jump {t : Str} {a b : String} (ha : eqNoCase t a.toList) (hb : eqNoCase t b.toList) (h1 : upper a.toList = a.toList) (h2 : upper b.toList = b.toList) : a = b := by
  have e : upper a.toList = upper b.toList := ha.symm.trans hb
  rw [h1, h2] at e
  exact String.toList_injective e

theorem jump_reference (hpc : 0 ≤ s.pc) (hprog : InProgram i8086 s t rest s1) (hem : Emits i8086 (ctxOf i8086 s) t rest blob rels) (hne : rels ≠ [])
    (hin : ¬ I86Inner t rest) {value : M68Use → Nat → Str → Int → Prop} (ho : ¬ I86Odd value t rest) {name : String} (hname : name ∈ i86Jumps) (ht : eqNoCase t name.toList) :
    ∃ p, p.2.1 ∈ rels ∧ I86Place (ctxOf i8086 s) p ∧ Recorded s1 s.bytes.length blob p.2.1 ∧ p.1 = M68Use.pc ∧ blob.length = 1 + p.2.1.size ∧ rest.head? = some p.2.1.label := by
  obtain ⟨r, ts, us, sl, v, b, stale, own, p, tail, hr, rfl, hmem, hp, hnum, hcode, hR, hj, hw, hall⟩ := i86_reference hpc hprog hem hne hin ho
  have hn : r.2.1 = name := upper_jump hr.name ht (table_upper r hr.row) (jumps_upper _ hname)
  obtain ⟨h1, h2, h3⟩ := hj (table_jumps r hr.row (fun hm => ho (hr.odd hm value)) hw (by rw [hn]; exact hname))
  refine ⟨p, hmem, hp, hR, h1, ?_, ?_⟩
  · rw [hcode, h2]
    simp [wordBytes_length]
    omega
  · rw [hr.text, h3]
    rfl

/-- C69: a jump to a label too far away is not linked. -/
theorem C69_rejected (hpc : 0 ≤ s.pc) (hprog : InProgram i8086 s t rest s1) (hem : Emits i8086 (ctxOf i8086 s) t rest blob rels) (hne : rels ≠ [])
    (hin : ¬ I86Inner t rest) {value : M68Use → Nat → Str → Int → Prop} (ho : ¬ I86Odd value t rest) {name : String} (hname : name ∈ i86Jumps) (ht : eqNoCase t name.toList)
    (hplain : ∀ r ∈ rels, r.label ≠ [] ∧ ∀ ch ∈ r.label, formulaChar ch = false) (hord : ∀ e ∈ s1.relocs, Ordinary e.2)
    {label : Str} {l : LabelInfo} (hlabel : rest.head? = some label) (hlk : s1.labels.lookup label = some l)
    (hfar : l.org + l.base - (s.pc + blob.length) < -(2 ^ (8 * (blob.length - 1) - 1)) ∨ 2 ^ (8 * (blob.length - 1) - 1) ≤ l.org + l.base - (s.pc + blob.length)) :
    (link i8086 .dummy s1).1 ≠ .ok () := by
  obtain ⟨p, hmem, hp, hR, h1, h2, h3⟩ := jump_reference hpc hprog hem hne hin ho hname ht
  rw [hlabel] at h3
  cases h3
  obtain ⟨q1, q2⟩ := hplain _ hmem
  refine plain_rejected rfl hord hR q1 q2 hlk fun hrg => ?_
  have h := (place_range (c := ctxOf i8086 s) hpc hp (l.org + l.base)).1 ⟨hrg, fun e => by
    have := hp.pc h1
    have hpc' : 0 ≤ (ctxOf i8086 s).pc := hpc
    omega⟩
  rw [if_pos h1, hp.size] at h
  have e : (ctxOf i8086 s).pc = s.pc := rfl
  rw [e] at h
  have e2 : 8 * (blob.length - 1) = 8 * p.2.1.size := by omega
  rw [e2, h2] at hfar
  simp only [Int.natCast_add] at hfar
  have e3 : s.pc + (((1 : Nat) : Int) + p.2.1.size) = s.pc + 1 + p.2.1.size := by omega
  rw [e3] at hfar
  omega

theorem lookup_member {β : Type} {l : List (Nat × β)} (hn : (l.map Prod.fst).Nodup) {k : Nat} {v : β} (h : (k, v) ∈ l) : l.lookup k = some v := by
  induction l with
  | nil => cases h
  | cons q l ih =>
    obtain ⟨k', v'⟩ := q
    simp only [List.map_cons, List.nodup_cons] at hn
    rw [List.lookup_cons]
    rcases List.mem_cons.1 h with h | h
    · cases h
      simp
    · have hne : k ≠ k' := fun e => hn.1 (e ▸ List.mem_map_of_mem (f := Prod.fst) h)
      simp only [beq_eq_false_iff_ne.2 hne]
      exact ih hn.2 h

/-- C69: one that is not is linked, if nothing is wrong with the other references. -/
theorem C69_accepted (hpc : 0 ≤ s.pc) (hprog : InProgram i8086 s t rest s1) (hem : Emits i8086 (ctxOf i8086 s) t rest blob rels) (hne : rels ≠ [])
    (hin : ¬ I86Inner t rest) {value : M68Use → Nat → Str → Int → Prop} (ho : ¬ I86Odd value t rest) {name : String} (hname : name ∈ i86Jumps) (ht : eqNoCase t name.toList)
    (hplain : ∀ r ∈ rels, r.label ≠ [] ∧ ∀ ch ∈ r.label, formulaChar ch = false) (hord : ∀ e ∈ s1.relocs, Ordinary e.2)
    {label : Str} {l : LabelInfo} (hlabel : rest.head? = some label) (hlk : s1.labels.lookup label = some l)
    (hnear : -(2 ^ (8 * (blob.length - 1) - 1)) ≤ l.org + l.base - (s.pc + blob.length) ∧ l.org + l.base - (s.pc + blob.length) < 2 ^ (8 * (blob.length - 1) - 1))
    (hothers : ∀ e ∈ s1.relocs, e.1 ≠ s.bytes.length + 1 → ∀ x, ¬ Fault (labelRelative i8086.sy s1.labels) s1.bytes.length e x) (hnodup : (s1.relocs.map Prod.fst).Nodup) :
    (link i8086 .dummy s1).1 = .ok () := by
  obtain ⟨p, hmem, hp, hR, h1, h2, h3⟩ := jump_reference hpc hprog hem hne hin ho hname ht
  rw [hlabel] at h3
  cases h3
  obtain ⟨q1, q2⟩ := hplain _ hmem
  have e2 : 8 * (blob.length - 1) = 8 * p.2.1.size := by omega
  rw [e2, h2] at hnear
  simp only [Int.natCast_add] at hnear
  have e3 : s.pc + (((1 : Nat) : Int) + p.2.1.size) = s.pc + 1 + p.2.1.size := by omega
  rw [e3] at hnear
  have h := (place_range (c := ctxOf i8086 s) hpc hp (l.org + l.base)).2 (by rw [if_pos h1, hp.size]; exact hnear)
  rw [C38_success i8086 rfl s1 hord]
  intro e he x
  by_cases hee : e.1 = s.bytes.length + 1
  · obtain ⟨k, r⟩ := e
    have hee : k = s.bytes.length + 1 := hee
    subst hee
    have hk : s1.relocs.lookup (s.bytes.length + 1) = some r := lookup_member hnodup he
    have he' := hR.entry
    rw [hp.offset, hk] at he'
    cases he'
    have := plain_fault (d := i8086) hR q1 q2 hlk (by rw [hp.aligned]; exact Int.emod_one _) h.2 h.1 (by intro hi lo hb; rw [hp.bits] at hb; cases hb) x
    rw [hp.offset] at this
    exact this
  · exact hothers e he hee x

/-! ## Examples

`again: NOP` at `0x150`, then a line with the label. -/

def exI86Loop : St := { bytes := [0x90], labels := [("again".toList, ⟨0, 0x150, none⟩)], counter := 1, org := 0x150 }
def exI86Jnz : St := emitted exI86Loop [0x75, 0] [(nearSlot 0x151 "again".toList).2.1]
def exI86Mov : St := emitted exI86Loop [0xBB, 0, 0] [(wordSlot "again".toList).2.1]

/-- A test for `I86Inner`. -/
def notInner86 (m : Str) (rest : List Str) : Bool :=
  upper m != upper "LES".toList && upper m != upper "LDS".toList && !(rest.contains ['+']) && !(rest.contains ['-']) && rest.all fun t => !(t.contains ':')

theorem not_inner86 {m : Str} {rest : List Str} (h : notInner86 m rest = true) : ¬ I86Inner m rest := by
  simp only [notInner86, Bool.and_eq_true, bne_iff_ne, ne_eq, Bool.not_eq_true', List.all_eq_true] at h
  obtain ⟨⟨⟨⟨h1, h2⟩, h3⟩, h4⟩, h5⟩ := h
  rintro (h | h | h | h | ⟨t, ht, h⟩)
  · exact h1 h
  · exact h2 h
  · rw [List.contains_iff_mem.2 h] at h3; cases h3
  · rw [List.contains_iff_mem.2 h] at h4; cases h4
  · have := h5 t ht
    rw [List.contains_iff_mem.2 h] at this
    cases this

theorem exI86Jnz_emits : Emits i8086 (ctxOf i8086 exI86Loop) "jnz".toList ["again".toList] [0x75, 0] [(nearSlot 0x151 "again".toList).2.1] :=
  .handler rfl (Prod.ext (by decide +kernel) rfl)
theorem exI86Mov_emits : Emits i8086 (ctxOf i8086 exI86Loop) "mov".toList ["bx".toList, "again".toList] [0xBB, 0, 0] [(wordSlot "again".toList).2.1] :=
  .handler rfl (Prod.ext (by decide +kernel) rfl)

example : ∃ used extra i, ["again".toList] = used ++ extra ∧ (i.args = [] → extra = []) ∧ I86Written (i86Linked exI86Loop exI86Jnz) "jnz".toList used i ∧
    disasm86 (window (link i8086 .dummy exI86Jnz).2.bytes 1 2) = some i := by
  have h := C69_linked (s := exI86Loop) (s1 := exI86Jnz) (by decide) (.last rfl (by decide +kernel) rfl exI86Jnz_emits) exI86Jnz_emits (by simp) (not_inner86 (by decide +kernel))
    (not_odd86 (by decide +kernel)) (by intro r hr; cases List.mem_singleton.1 hr; exact ⟨by decide, by decide⟩)
    (.single (pair_ok (by decide +kernel)) rfl ⟨by decide, by decide, rfl⟩)
  exact h

example : disasm86 (window (link i8086 .dummy exI86Jnz).2.bytes 1 2) = some ⟨"JNZ", [.rel (-3)]⟩ := by decide +kernel

example : ∃ used extra i, ["bx".toList, "again".toList] = used ++ extra ∧ (i.args = [] → extra = []) ∧ I86Written (i86Linked exI86Loop exI86Mov) "mov".toList used i ∧
    disasm86 (window (link i8086 .dummy exI86Mov).2.bytes 1 3) = some i := by
  have h := C69_linked (s := exI86Loop) (s1 := exI86Mov) (by decide) (.last rfl (by decide +kernel) rfl exI86Mov_emits) exI86Mov_emits (by simp) (not_inner86 (by decide +kernel))
    (not_odd86 (by decide +kernel)) (by intro r hr; cases List.mem_singleton.1 hr; exact ⟨by decide, by decide⟩)
    (.single (pair_ok (by decide +kernel)) rfl ⟨by decide, by decide, rfl⟩)
  exact h

example : disasm86 (window (link i8086 .dummy exI86Mov).2.bytes 1 3) = some ⟨"MOV", [.r16 3, .imm16 0x150]⟩ := by decide +kernel

example : (link i8086 .dummy exI86Jnz).1 = .ok () :=
  C69_accepted (s := exI86Loop) (s1 := exI86Jnz) (by decide) (.last rfl (by decide +kernel) rfl exI86Jnz_emits) exI86Jnz_emits (by simp) (not_inner86 (by decide +kernel))
    (value := m68Number exI86) (not_odd86 (by decide +kernel)) (name := "JNZ") (by decide) rfl (by intro r hr; cases List.mem_singleton.1 hr; exact ⟨by decide, by decide⟩)
    (by intro e he; cases List.mem_singleton.1 he; exact ⟨by decide, by decide, rfl⟩) (l := ⟨0, 0x150, none⟩) rfl (by decide) (by decide)
    (by intro e he hne; cases List.mem_singleton.1 he; exact absurd rfl hne) (by decide)

/-- A label 128 bytes before the end of `JNZ` can be reached, one 129 bytes before it cannot. -/
def exI86Far : St := { exI86Loop with counter := 0x7F }
def exI86JnzFar : St := emitted exI86Far [0x75, 0] [(nearSlot 0x1CF "again".toList).2.1]
theorem exI86Far_emits : Emits i8086 (ctxOf i8086 exI86Far) "jnz".toList ["again".toList] [0x75, 0] [(nearSlot 0x1CF "again".toList).2.1] :=
  .handler rfl (Prod.ext (by decide +kernel) rfl)

example : (link i8086 .dummy exI86JnzFar).1 ≠ .ok () :=
  C69_rejected (s := exI86Far) (s1 := exI86JnzFar) (by decide) (.last rfl (by decide +kernel) rfl exI86Far_emits) exI86Far_emits (by simp) (not_inner86 (by decide +kernel))
    (value := m68Number exI86) (not_odd86 (by decide +kernel)) (name := "JNZ") (by decide) rfl (by intro r hr; cases List.mem_singleton.1 hr; exact ⟨by decide, by decide⟩)
    (by intro e he; cases List.mem_singleton.1 he; exact ⟨by decide, by decide, rfl⟩) (l := ⟨0, 0x150, none⟩) rfl (by decide) (by decide)

/-! ## What does not hold: the lines of `I86Inner` -/

def exI86Disp : St := emitted exI86Loop [0x03, 0x8F, 0, 0] [(dispSlot "again".toList).2.1]
def exI86Les : St := emitted exI86Loop [0xC4, 0x06, 0, 0] [(wordSlot "again".toList).2.1]

/-- `add cx, [bx + again]`: linking merges the address into the byte that says which registers are meant, and the result is `add bx, di`. -/
theorem C69_displacement : Emits i8086 (ctxOf i8086 exI86Loop) "add".toList (["cx", "[", "bx", "+", "again", "]"].map String.toList) [0x03, 0x8F, 0, 0] [(dispSlot "again".toList).2.1] ∧
    (link i8086 .dummy exI86Disp).1 = .ok () ∧ window (link i8086 .dummy exI86Disp).2.bytes 1 4 = [0x03, 0xDF, 0x01, 0x00] ∧
    disasm86 [0x03, 0xDF] = some ⟨"ADD", [.r16 3, .r16 7]⟩ :=
  ⟨.handler rfl (Prod.ext (by decide +kernel) rfl), by decide +kernel, by decide +kernel, by decide +kernel⟩

/-- So it does for `les ax, [again]`. -/
theorem C69_pointer : Emits i8086 (ctxOf i8086 exI86Loop) "les".toList (["ax", "[", "again", "]"].map String.toList) [0xC4, 0x06, 0, 0] [(wordSlot "again".toList).2.1] ∧
    (link i8086 .dummy exI86Les).1 = .ok () ∧ window (link i8086 .dummy exI86Les).2.bytes 1 4 = [0xC4, 0x56, 0x01, 0x00] ∧
    disasm86 [0xC4, 0x56, 0x01] = some ⟨"LES", [.r16 2, .mem true 6 1]⟩ :=
  ⟨.handler rfl (Prod.ext (by decide +kernel) rfl), by decide +kernel, by decide +kernel, by decide +kernel⟩

end Necro
