import Verif.Props.PowerPC
import Verif.Lemmas.Linked
/-!
# C75: labels in PowerPC instructions
-/

namespace Necro
open Spec

variable {s s1 s2 : St} {t : Str} {rest : List Str} {blob : Bytes}

/-- The address `a` of a label can be used by the instruction at `pc`, in a field of width `w`. -/
def ppcReaches (k : PpcOperand) (pc : Int) (w : Nat) (a : Int) : Prop :=
  if k = .relative ∧ pc ≠ 0 then -(2 ^ (w - 1)) ≤ a - pc ∧ a - pc < 2 ^ (w - 1) else 0 ≤ a ∧ a < 2 ^ w

/-- What the field then holds: the address, or, in a branch, a number of words. -/
def ppcLabelField (k : PpcOperand) (pc : Int) (w : Nat) (a : Int) : Int :=
  match k with
  | .relative => (a - pc) / 4 % 2 ^ w
  | .absolute => a / 4 % 2 ^ w
  | _ => a % 2 ^ w

/-- The token writes the content `n` of a field in the linked program, as a number or as a label. -/
def ppcLinked (s s1 : St) (k : PpcOperand) (w : Nat) (tok : Str) (n : Nat) : Prop :=
  ppcNumber (ctxOf ppc s) k w tok n ∨
    (∀ y dec, ¬ TokenValue (ctxOf ppc s).sy (ctxOf ppc s).labels tok y dec) ∧ ∃ l, s1.labels.lookup tok = some l ∧ ppcReaches k s.pc w (l.org + l.base) ∧
      (n : Int) = ppcLabelField k s.pc w (l.org + l.base)

/-- `tok` is an operand of the line, for a field of the given kind and width. -/
def PpcOperandAt (t : Str) (rest : List Str) (k : PpcOperand) (w : Nat) (tok : Str) : Prop :=
  ∃ f ∈ ppcForms, eqNoCase t f.name.toList ∧ rest.length = f.arity ∧ ∃ op ∈ ppcOps, op.name = f.target ∧
    ∃ (i j : Nat) (fl : PpcField), op.fields[i]? = some fl ∧ f.args[i]? = some (.op j) ∧ rest[j]? = some tok ∧ fl.kind = k ∧ fl.hi - fl.lo + 1 = w

/-! ## Words -/

theorem word_add {w w' : Nat} {f : BitField} (hlo : f.lo ≤ f.hi) (h : (w' : Int) = w + fieldPart f) (hz : fld w f.hi f.lo = 0) (i : Nat) :
    w'.testBit i = (w.testBit i || decide (f.lo ≤ i ∧ i ≤ f.hi) && bit f.value (i - f.lo)) := by
  obtain ⟨p, hp⟩ := Int.eq_ofNat_of_zero_le (fieldPart_nonneg f)
  have hbit := fun i => bit_fieldPart f hlo i
  rw [hp] at h
  simp only [hp, bit_natCast] at hbit
  have hor : w ||| p = w + p := by
    refine or_eq_add w p fun i hi => ?_
    obtain ⟨h1, h2⟩ := hi
    rw [hbit i] at h2
    simp only [Bool.and_eq_true, decide_eq_true_eq] at h2
    have := fld_testBit w f.hi f.lo (i - f.lo)
    rw [hz, show f.lo + (i - f.lo) = i by omega, h1] at this
    simp at this
    omega
  rw [show w' = w ||| p by omega, Nat.testBit_or, hbit]

theorem any_set {items : List PpcItem} {vals : List Int} {V v : Int} {x : PpcItem} {p : BitField → Bool} : ∀ {j : Nat}, items[j]? = some x → vals[j]? = some v →
    p ⟨x.1 + x.2.1 - 1, x.1, v⟩ = false → (ppcBitFields items (vals.set j V)).any p = ((ppcBitFields items vals).any p || p ⟨x.1 + x.2.1 - 1, x.1, V⟩) := by
  unfold ppcBitFields
  induction items generalizing vals with
  | nil => intro j h; simp at h
  | cons y items ih =>
    intro j hx hv hp
    cases vals with
    | nil => simp at hv
    | cons u vals =>
      cases j with
      | zero =>
        simp at hx hv
        subst hx hv
        simp [hp, Bool.or_comm]
      | succ j =>
        simp at hx hv
        simp only [List.set_cons_succ, List.zipWith_cons_cons, List.any_cons, ih hx hv hp, Bool.or_assoc]

theorem word_set {base w w' : Nat} {items : List PpcItem} {vals : List Int} {V : Int} {x : PpcItem} {j : Nat} (hok : PpcItemsOk base items)
    (h : PpcWord base (ppcBitFields items vals) w) (hx : items[j]? = some x) (hv : vals[j]? = some 0)
    (hw : (w' : Int) = w + fieldPart ⟨x.1 + x.2.1 - 1, x.1, V⟩) : PpcWord base (ppcBitFields items (vals.set j V)) w' := by
  intro i hi
  have hpos := (hok.each x (List.mem_of_getElem? hx)).1
  have hz : fld w (x.1 + x.2.1 - 1) x.1 = 0 := by rw [word_item hok h hx hv]; simp
  rw [word_add (by simp only; omega) hw hz, h i hi]
  unfold ppcBit
  rw [any_set hx hv (by simp [bit_zero]), Bool.or_assoc]

theorem ppc_reads_one {c : Ctx} {r : Reloc} {items : List PpcItem} {toks : List Str} {vals : List Int} {rels : List Reloc} (h : PpcReads c items toks vals rels) :
    rels = [r] → ∃ (j : Nat) (x : PpcItem) (tok : Str) (v : Int), items[j]? = some x ∧ toks[j]? = some tok ∧ vals[j]? = some v ∧
      x.2.2.value (x.1 + x.2.1 - 1) x.1 tok c = (.ok v, [r]) ∧
      ∀ (i : Nat) (x : PpcItem) (tok : Str) (v : Int), i ≠ j → items[i]? = some x → toks[i]? = some tok → vals[i]? = some v →
        x.2.2.value (x.1 + x.2.1 - 1) x.1 tok c = (.ok v, []) := by
  induction h with
  | nil => intro h; cases h
  | @cons lo w k tok0 v0 r0 items toks vals rels h1 h2 ih =>
    intro h
    cases r0 with
    | nil =>
      obtain ⟨j, x, tok, v, e1, e2, e3, e4, e5⟩ := ih (by simpa using h)
      refine ⟨j + 1, x, tok, v, by simpa using e1, by simpa using e2, by simpa using e3, e4, ?_⟩
      intro i x tok v hi hx ht hv
      cases i with
      | zero => simp at hx ht hv; subst hx ht hv; exact h1
      | succ i => exact e5 i x tok v (by omega) (by simpa using hx) (by simpa using ht) (by simpa using hv)
    | cons r' r0 =>
      simp only [List.cons_append, List.cons.injEq, List.append_eq_nil_iff] at h
      obtain ⟨rfl, rfl, rfl⟩ := h
      refine ⟨0, _, tok0, v0, rfl, rfl, rfl, h1, ?_⟩
      intro i x tok v hi hx ht hv
      cases i with
      | zero => exact absurd rfl hi
      | succ i =>
        obtain ⟨r, hr, a, b, hab⟩ := reads_get h2 (by simpa using hx) (by simpa using ht) (by simpa using hv)
        simp only [List.nil_eq, List.append_eq_nil_iff] at hab
        rw [hab.1.2] at hr
        exact hr

/-! ## The reference -/

theorem slot_reaches {k : PpcKind} {o : PpcOperand} (h : ppcKindOk o k = true) (hk : k.isNumber = true) {pc : Int} {hi lo : Nat} {tok : Str} (x : Int) :
    (RefRange (ppcSlot k pc hi lo tok).2.1 (x - (ppcSlot k pc hi lo tok).2.1.relative) ∧ ((ppcSlot k pc hi lo tok).2.1.relative = 0 → 0 ≤ x)) ↔
      ppcReaches o pc (hi - lo + 1) x := by
  unfold RefRange ppcReaches
  cases k with
  | pcrel =>
    cases o <;> first | (cases h; done) | skip
    simp only [ppcSlot]
    by_cases hp : pc = 0
    · subst hp
      simp [and_comm]
    · simp [hp]
  | _ =>
    first
    | (cases hk; done)
    | (cases o <;> first | (cases h; done) | simp [ppcSlot, and_comm])

theorem slot_content {k : PpcKind} {o : PpcOperand} (h : ppcKindOk o k = true) (hk : k.isNumber = true) {pc : Int} {hi lo : Nat} {tok : Str} (x : Int) :
    converted (ppcSlot k pc hi lo tok).2.1 (x - (ppcSlot k pc hi lo tok).2.1.relative) % 2 ^ (hi - lo + 1) = ppcLabelField o pc (hi - lo + 1) x := by
  unfold ppcLabelField converted
  cases k <;> first | (cases hk; done) | (cases o <;> first | (cases h; done) | simp [ppcSlot, pyShr_div])

theorem slot_fieldOk {k : PpcKind} {o : PpcOperand} (h : ppcKindOk o k = true) (hk : k.isNumber = true) {pc : Int} {hi lo : Nat} {tok : Str} {x : Int} (hlo : lo ≤ hi)
    (hx : ppcReaches o pc (hi - lo + 1) x) : FieldOk ⟨hi, lo, converted (ppcSlot k pc hi lo tok).2.1 (x - (ppcSlot k pc hi lo tok).2.1.relative)⟩ := by
  have hpow : (2 : Int) ^ (hi - lo + 1) = 2 * 2 ^ (hi - lo) := by rw [Int.pow_succ, Int.mul_comm]
  have hpos : (0 : Int) < 2 ^ (hi - lo) := Int.pow_pos (by decide)
  have key : -(2 ^ (hi - lo)) ≤ converted (ppcSlot k pc hi lo tok).2.1 (x - (ppcSlot k pc hi lo tok).2.1.relative) ∧
      converted (ppcSlot k pc hi lo tok).2.1 (x - (ppcSlot k pc hi lo tok).2.1.relative) < 2 ^ (hi - lo + 1) := by
    unfold ppcReaches at hx
    rw [hpow] at hx ⊢
    unfold converted
    cases k <;> first | (cases hk; done) | (cases o <;> first | (cases h; done) | skip) <;>
      simp [ppcSlot, pyShr_div] at hx ⊢ <;> (try split at hx) <;> omega
  exact ⟨hlo, key⟩

/-- What the reference of a line is. -/
structure PpcRef (s s1 : St) (t : Str) (rest : List Str) (blob : Bytes) (r : Reloc) (row : String × Nat × List (List PpcItem) × List PpcItem) (vals : List Int)
    (f : PpcForm) (op : PpcOp) (j : Nat) (x : PpcItem) (tok : Str) : Prop where
  run : PpcRun (ctxOf ppc s) rest blob [r] row vals
  form : PpcMatch t row f op
  item : row.2.2.2[j]? = some x
  token : rest[j]? = some tok
  val : vals[j]? = some 0
  number : x.2.2.isNumber = true
  ref : r = (ppcSlot x.2.2 s.pc (x.1 + x.2.1 - 1) x.1 tok).2.1
  notReg : ¬ PpcRegister tok
  noValue : ∀ y dec, ¬ TokenValue (ctxOf ppc s).sy (ctxOf ppc s).labels tok y dec
  others : ∀ (i : Nat) (y : PpcItem) (tok : Str) (v : Int), i ≠ j → row.2.2.2[i]? = some y → rest[i]? = some tok → vals[i]? = some v →
    y.2.2.value (y.1 + y.2.1 - 1) y.1 tok (ctxOf ppc s) = (.ok v, [])
  length : blob.length = 4
  recorded : Recorded s1 s.bytes.length blob r

theorem kind_some {k : PpcKind} (h : k ≠ .unset) : ∃ o, ppcKindOk o k = true := by
  cases k with
  | greg => exact ⟨.gpr, rfl⟩
  | g0reg => exact ⟨.base, rfl⟩
  | freg => exact ⟨.fpr, rfl⟩
  | si | snum => exact ⟨.signed, rfl⟩
  | pcrel => exact ⟨.relative, rfl⟩
  | baddr => exact ⟨.absolute, rfl⟩
  | unset => exact absurd rfl h
  | _ => exact ⟨.unsigned, rfl⟩

theorem text_mono {value value' : PpcOperand → Nat → Str → Nat → Prop} {o : PpcOperand} {w n : Nat} {tok : Str} (hv : value o w tok n → value' o w tok n)
    (h : PpcText value o w tok n) : PpcText value' o w tok n := by
  cases h with
  | gpr a b => exact .gpr a b
  | base a b => exact .base a b
  | zero => exact .zero
  | fpr a b => exact .fpr a b
  | value a b c => exact .value a b (hv c)

theorem ppc_ref {r : Reloc} (hprog : InProgram ppc s t rest s1) (hem : Emits ppc (ctxOf ppc s) t rest blob [r]) (ho : ¬ PpcOdd t rest) :
    ∃ row vals f op j x tok, PpcRef s s1 t rest blob r row vals f op j x tok := by
  obtain ⟨row, vals, f, op, hrun, hm⟩ := ppc_line hem ho
  obtain ⟨j, x, tok, v, e1, e2, e3, e4, e5⟩ := ppc_reads_one hrun.reads rfl
  obtain ⟨w, hw, hb⟩ := hrun.word
  have hlen : blob.length = 4 := by rw [hb, wordBytes_length]
  have hitems := hm.items
  obtain ⟨o, ho⟩ := kind_some (k := x.2.2) (by intro e; rw [e] at e4; cases e4)
  rcases item_read ho (hitems.each x (List.mem_of_getElem? e1)).1 (hitems.regs x (List.mem_of_getElem? e1)) (matchAll_get hrun.pats e1 e2) e4 with ⟨h, -⟩ | ⟨h1, h2, rfl, h4, h5⟩
  · cases h
  · simp only [List.cons.injEq, and_true] at h2
    refine ⟨row, vals, f, op, j, x, tok, hrun, hm, e1, e2, e3, h1, h2, h4, h5, e5, hlen, hprog.recorded hem ?_ ?_⟩
    · rw [h2, ppcSlot_offset, ppcSlot_size, hlen]; decide
    · rw [h2, ppcSlot_size]; decide

/-- C75: in a linked program the code of a line with a label is, for the processor, the instruction written, the label standing for its address or,
in a branch, for the number of words to it. -/
theorem C75_linked {r : Reloc} (hprog : InProgram ppc s t rest s1) (hem : Emits ppc (ctxOf ppc s) t rest blob [r]) (ho : ¬ PpcOdd t rest)
    (hplain : r.label ≠ [] ∧ ∀ ch ∈ r.label, formulaChar ch = false) (hlink : LinksAlone ppc s1 s2 s.bytes.length r) :
    ∃ i, decodePpcBytes (window s2.bytes s.bytes.length 4) = some i ∧ PpcWritten (ppcLinked s s1) t rest i := by
  obtain ⟨row, vals, f, op, j, x, tok, h⟩ := ppc_ref hprog hem ho
  obtain ⟨v, hv, hb⟩ := h.run.word
  have hitems := h.form.items
  obtain ⟨hw, hw', -⟩ := hitems.each x (List.mem_of_getElem? h.item)
  have hword : PpcWord row.2.1 (ppcBitFields row.2.2.2 vals) (ofBytes true blob) := by rw [hb]; exact word_of_bytes hv
  have hoff : r.offset = 0 := by rw [h.ref, ppcSlot_offset]
  have hsize : r.size = 4 := by rw [h.ref, ppcSlot_size]
  have hwin : window blob 0 4 = blob := by
    unfold window; rw [List.drop_zero, List.take_of_length_le (by rw [h.length]; exact Nat.le_refl _)]
  obtain ⟨l, h1, hrg, hneg, -, hnew⟩ := field_linked (hi := x.1 + x.2.1 - 1) (lo := x.1) rfl (by rw [hoff]; exact hlink) h.recorded (by rw [h.ref, ppcSlot_bits]) (by omega)
    (by rw [hsize]; omega) (by
      rw [hoff, hsize, hwin]
      have := word_item hitems hword h.item h.val
      unfold fld at this
      show ofBytes true blob / _ % _ = 0
      simpa using this) hplain.1 hplain.2
  rw [hoff, hsize, hwin, Nat.add_zero] at hnew
  have hnew : ((ofBytes true (window s2.bytes s.bytes.length 4) : Nat) : Int) = (ofBytes true blob : Nat) + _ := hnew
  have hset := word_set hitems hword h.item h.val hnew
  have hlen : (window s2.bytes s.bytes.length 4).length = 4 := by
    have h1 : s2.bytes.length = s1.bytes.length := by
      have := (C36_windows ppc .dummy rfl s1 (fun e he => (hlink.ordinary e he).hook)).1
      rwa [hlink.ok] at this
    have h2 := congrArg List.length h.recorded.code
    rw [h.length] at h2
    simp only [window, List.length_take, List.length_drop] at h2 ⊢
    omega
  obtain ⟨hl, hl'⟩ := h.run.reads.lengths
  rw [decodePpcBytes_word hlen]
  obtain ⟨i, g1, g2⟩ := ppc_row_decodes (value := ppcLinked s s1) h.form.oper h.form.target h.form.ok h.form.arity h.form.name hset (by simpa using hl') hl (by
    intro i y tok' v o hy ht hv hok
    by_cases hij : i = j
    · subst hij
      rw [h.item] at hy
      cases hy
      rw [h.token] at ht
      cases ht
      have hjl := (List.getElem?_eq_some_iff.1 h.val).1
      rw [List.getElem?_set_self hjl] at hv
      cases hv
      have hwid : x.1 + x.2.1 - 1 - x.1 + 1 = x.2.1 := by omega
      refine .value (kind_number hok h.number) h.notReg (.inr ⟨h.noValue, l, ?_, ?_, ?_⟩)
      · rw [← h1, h.ref, ppcSlot_label]
      · have := (slot_reaches hok h.number (tok := tok) (pc := s.pc) (hi := x.1 + x.2.1 - 1) (lo := x.1) (l.org + l.base)).1 (by rw [← h.ref]; exact ⟨hrg, hneg⟩)
        rwa [hwid] at this
      · have := slot_content hok h.number (tok := tok) (pc := s.pc) (hi := x.1 + x.2.1 - 1) (lo := x.1) (l.org + l.base)
        rw [hwid, ← h.ref] at this
        rw [Int.toNat_of_nonneg (Int.emod_nonneg _ (Int.ne_of_gt (Int.pow_pos (by decide)))), this]
    · rw [List.getElem?_set_ne (Ne.symm hij)] at hv
      have hr := h.others i y tok' v hij hy ht hv
      rcases item_read hok (hitems.each y (List.mem_of_getElem? hy)).1 (hitems.regs y (List.mem_of_getElem? hy)) (matchAll_get h.run.pats hy ht) hr with ⟨-, g⟩ | ⟨-, g, -⟩
      · exact text_mono (fun hn => .inl hn) g
      · cases g)
  exact ⟨i, g1, f, h.form.form, g2⟩

theorem text_number {value : PpcOperand → Nat → Str → Nat → Prop} {o : PpcOperand} {w n : Nat} {tok : Str} (ho : o ∈ [PpcOperand.unsigned, .signed, .relative, .absolute])
    (h : PpcText value o w tok n) : value o w tok n := by
  cases h with
  | value _ _ h => exact h
  | _ => simp at ho

theorem operand_ref {r : Reloc} {row : String × Nat × List (List PpcItem) × List PpcItem} {vals : List Int} {f : PpcForm} {op : PpcOp} {j : Nat} {x : PpcItem} {tok : Str}
    (h : PpcRef s s1 t rest blob r row vals f op j x tok) {k : PpcOperand} {w : Nat} (hk : k ∈ [PpcOperand.unsigned, .signed, .relative, .absolute])
    (hop : PpcOperandAt t rest k w r.label) : ∃ kd lo, 0 < w ∧ ppcKindOk k kd = true ∧ kd.isNumber = true ∧ r = (ppcSlot kd s.pc (lo + w - 1) lo r.label).2.1 := by
  obtain ⟨f', hf', hname, harity, op', hop', htarget, i, j', fl, e1, e2, e3, rfl, rfl⟩ := hop
  cases ppc_form_unique h.form.form hf' (((show upper t = upper f.name.toList from h.form.name).symm).trans hname) (by
    rw [h.form.arity, ← harity, h.run.reads.lengths.1])
  cases ppc_op_unique h.form.oper hop' (h.form.target.trans htarget.symm)
  have hok := h.form.ok
  simp only [ppcOpOk, Bool.and_eq_true] at hok
  obtain ⟨y, g1, g2, g3, g4⟩ := argsOk_get hok.1.1.2 e1 e2
  have hitems := h.form.items
  obtain ⟨hw, -, -⟩ := hitems.each y (List.mem_of_getElem? g1)
  have hkd : y.2.2.isNumber = true := by
    cases hy : y.2.2 <;> first | rfl | (rw [hy] at g2; cases hfl : fl.kind <;> rw [hfl] at g2 hk <;> first | (cases g2; done) | simp at hk)
  have hwid : fl.hi - fl.lo + 1 = y.2.1 := by omega
  refine ⟨y.2.2, y.1, by omega, g2, hkd, ?_⟩
  obtain ⟨hl, hl'⟩ := h.run.reads.lengths
  obtain ⟨v, hv⟩ : ∃ v, vals[j']? = some v := by
    have := (List.getElem?_eq_some_iff.1 g1).1
    exact ⟨_, List.getElem?_eq_getElem (by omega)⟩
  obtain ⟨r', hr', a, b, hab⟩ := reads_get h.run.reads g1 e3 hv
  rcases item_read g2 hw (hitems.regs y (List.mem_of_getElem? g1)) (matchAll_get h.run.pats g1 e3) hr' with ⟨-, g⟩ | ⟨-, g, -⟩
  · obtain ⟨z, ⟨dec, g, -⟩, -⟩ := text_number hk g
    rw [h.ref, ppcSlot_label] at g
    exact absurd g (h.noValue _ _)
  · rw [g] at hab
    have : r = (ppcSlot y.2.2 (ctxOf ppc s).pc (y.1 + y.2.1 - 1) y.1 r.label).2.1 := by
      cases a with
      | nil => simp at hab; exact hab.1
      | cons => simp at hab
    rw [hwid]
    exact this

/-- C75: a line with a label that the operand cannot hold is not linked. -/
theorem C75_rejected {r : Reloc} (hprog : InProgram ppc s t rest s1) (hem : Emits ppc (ctxOf ppc s) t rest blob [r]) (ho : ¬ PpcOdd t rest)
    (hplain : r.label ≠ [] ∧ ∀ ch ∈ r.label, formulaChar ch = false) (hord : ∀ e ∈ s1.relocs, Ordinary e.2)
    {k : PpcOperand} {w : Nat} (hk : k ∈ [PpcOperand.unsigned, .signed, .relative, .absolute]) (hop : PpcOperandAt t rest k w r.label)
    {l : LabelInfo} (hlk : s1.labels.lookup r.label = some l) (hfar : ¬ ppcReaches k s.pc w (l.org + l.base)) :
    (link ppc .dummy s1).1 ≠ .ok () := by
  obtain ⟨row, vals, f, op, j, x, tok, h⟩ := ppc_ref hprog hem ho
  obtain ⟨kd, lo, hw, h1, h2, h3⟩ := operand_ref h hk hop
  have hs := slot_reaches h1 h2 (tok := r.label) (pc := s.pc) (hi := lo + w - 1) (lo := lo) (l.org + l.base)
  rw [show lo + w - 1 - lo + 1 = w by omega, ← h3] at hs
  rw [← hs] at hfar
  by_cases g : RefRange r (l.org + l.base - r.relative)
  · have : r.relative = 0 ∧ l.org + l.base < 0 := by
      by_cases g' : r.relative = 0
      · exact ⟨g', Int.not_le.1 fun e => hfar ⟨g, fun _ => e⟩⟩
      · exact absurd ⟨g, fun e => absurd e g'⟩ hfar
    exact plain_negative rfl hord h.recorded hplain.1 hplain.2 hlk this.1 this.2
  · exact plain_rejected rfl hord h.recorded hplain.1 hplain.2 hlk g

/-- C75: and one it can hold is, if nothing else in the program is wrong. -/
theorem C75_accepted {r : Reloc} (hprog : InProgram ppc s t rest s1) (hem : Emits ppc (ctxOf ppc s) t rest blob [r]) (ho : ¬ PpcOdd t rest)
    (hplain : r.label ≠ [] ∧ ∀ ch ∈ r.label, formulaChar ch = false) (hord : ∀ e ∈ s1.relocs, Ordinary e.2)
    {k : PpcOperand} {w : Nat} (hk : k ∈ [PpcOperand.unsigned, .signed, .relative, .absolute]) (hop : PpcOperandAt t rest k w r.label)
    {l : LabelInfo} (hlk : s1.labels.lookup r.label = some l) (hnear : ppcReaches k s.pc w (l.org + l.base))
    (hothers : ∀ e ∈ s1.relocs, e ≠ (s.bytes.length, r) → ∀ x, ¬ Fault (labelRelative ppc.sy s1.labels) s1.bytes.length e x) :
    (link ppc .dummy s1).1 = .ok () := by
  obtain ⟨row, vals, f, op, j, x, tok, h⟩ := ppc_ref hprog hem ho
  obtain ⟨kd, lo, hw, h1, h2, h3⟩ := operand_ref h hk hop
  have hoff : r.offset = 0 := by rw [h.ref, ppcSlot_offset]
  have hwid : lo + w - 1 - lo + 1 = w := by omega
  have hs := slot_reaches h1 h2 (tok := r.label) (pc := s.pc) (hi := lo + w - 1) (lo := lo) (l.org + l.base)
  rw [hwid, ← h3] at hs
  have hn := hs.2 hnear
  rw [C38_success ppc rfl s1 hord]
  intro e he y
  by_cases hee : e = (s.bytes.length + r.offset, r)
  · subst hee
    refine plain_fault (d := ppc) h.recorded hplain.1 hplain.2 hlk (by rw [h3]; cases kd <;> exact Int.emod_one _) hn.2 hn.1 ?_ y
    intro hi lo' hb
    rw [h3, ppcSlot_bits] at hb
    cases hb
    have := slot_fieldOk h1 h2 (tok := r.label) (pc := s.pc) (hi := lo + w - 1) (lo := lo) (x := l.org + l.base) (by omega) (by rw [hwid]; exact hnear)
    rwa [← h3] at this
  · rw [hoff] at hee
    exact hothers e he hee y

/-- C75: the words counted in a branch lead to the label, or, if it is not a whole number of words away, to the last word before it. -/
theorem C75_distance {pc a : Int} {w n : Nat} (hw : 0 < w) (hpc : pc ≠ 0) (h : ppcReaches .relative pc w a) (hn : (n : Int) = ppcLabelField .relative pc w a) :
    pc + 4 * toSigned w n = a - (a - pc) % 4 := by
  obtain ⟨k, rfl⟩ : ∃ k, w = k + 1 := ⟨w - 1, by omega⟩
  simp only [ppcReaches, ppcLabelField, hpc, ne_eq, not_false_eq_true, and_self, if_true, Nat.add_sub_cancel] at h hn
  have hp : (2 : Int) ^ (k + 1) = 2 * 2 ^ k := by rw [Int.pow_succ, Int.mul_comm]
  have hq : (0 : Int) < 2 ^ k := Int.pow_pos (by decide)
  have hc : ((2 ^ (k + 1) : Nat) : Int) = 2 * 2 ^ k := by rw [Int.natCast_pow]; exact hp
  rw [hp] at hn
  unfold toSigned
  rw [hp]
  generalize (2 : Int) ^ k = P at *
  have hmod : (a - pc) / 4 % (2 * P) = if 0 ≤ (a - pc) / 4 then (a - pc) / 4 else (a - pc) / 4 + 2 * P := by
    split
    · exact Int.emod_eq_of_lt (by omega) (by omega)
    · rw [← Int.add_emod_right, Int.emod_eq_of_lt (by omega) (by omega)]
  rw [hmod] at hn
  split at hn <;> split <;> omega

theorem fill_index {value : PpcOperand → Nat → Str → Nat → Prop} {fields : List PpcField} {args : List PpcArg} {vs : List Nat} (h : PpcFill value rest fields args vs) :
    ∀ {i j : Nat} {fl : PpcField}, fields[i]? = some fl → args[i]? = some (.op j) →
      ∃ tok n, rest[j]? = some tok ∧ vs[i]? = some n ∧ PpcText value fl.kind (fl.hi - fl.lo + 1) tok n := by
  induction h with
  | nil => intro i j fl h; simp at h
  | num _ ih =>
    intro i j fl h1 h2
    cases i with
    | zero => simp at h2
    | succ i => simpa using ih (by simpa using h1) (by simpa using h2)
  | op h3 h4 _ ih =>
    intro i j fl h1 h2
    cases i with
    | zero =>
      simp at h1 h2
      subst h1 h2
      exact ⟨_, _, h3, rfl, h4⟩
    | succ i => simpa using ih (by simpa using h1) (by simpa using h2)

/-- C75: a branch to a label, not at address 0, leads to it. -/
theorem C75_branch {r : Reloc} (hprog : InProgram ppc s t rest s1) (hem : Emits ppc (ctxOf ppc s) t rest blob [r]) (ho : ¬ PpcOdd t rest)
    (hplain : r.label ≠ [] ∧ ∀ ch ∈ r.label, formulaChar ch = false) (hlink : LinksAlone ppc s1 s2 s.bytes.length r)
    {f : PpcForm} {op : PpcOp} {fl : PpcField} {i j : Nat} (hf : f ∈ ppcForms) (ht : eqNoCase t f.name.toList) (hlen : rest.length = f.arity) (hop : op ∈ ppcOps)
    (hname : op.name = f.target) (hfl : op.fields[i]? = some fl) (hk : fl.kind = .relative) (hj : f.args[i]? = some (.op j)) (htok : rest[j]? = some r.label)
    (hpc : s.pc ≠ 0) {l : LabelInfo} (hlk : s1.labels.lookup r.label = some l) (hal : (l.org + l.base - s.pc) % 4 = 0) :
    ∃ vs n, decodePpcBytes (window s2.bytes s.bytes.length 4) = some (op.name, vs) ∧ vs[i]? = some n ∧
      s.pc + 4 * toSigned (fl.hi - fl.lo + 1) n = l.org + l.base := by
  obtain ⟨_, h1, f', hf', hw⟩ := C75_linked hprog hem ho hplain hlink
  obtain ⟨row, vals, _, _, j0, x, tok0, href⟩ := ppc_ref hprog hem ho
  cases hw with
  | @mk op' vs hop' hname' ht' hlen' hfill =>
    cases ppc_form_unique hf' hf (((show upper t = upper f'.name.toList from ht').symm).trans ht) (hlen'.symm.trans hlen)
    cases ppc_op_unique hop' hop (hname'.trans hname.symm)
    obtain ⟨tok, n, e1, e2, e3⟩ := fill_index hfill hfl hj
    rw [htok] at e1
    cases e1
    rw [hk] at e3
    refine ⟨vs, n, h1, e2, ?_⟩
    rcases text_number (by decide) e3 with ⟨y, ⟨dec, g, -⟩, -⟩ | ⟨-, l', g1, g2, g3⟩
    · rw [href.ref, ppcSlot_label] at g
      exact absurd g (href.noValue _ _)
    · rw [hlk] at g1
      cases g1
      rw [C75_distance (Nat.succ_pos _) hpc g2 g3]
      omega

/-! ## Examples

`start: nop` at 0x1000, then a line with the label. -/

def exPpcLoop : St := { bytes := [0x60, 0, 0, 0], labels := [("start".toList, ⟨0, 0x1000, none⟩), ("next".toList, ⟨4, 0x1000, none⟩)], counter := 4, org := 0x1000 }
def exPpcB : St := emitted exPpcLoop [0x48, 0, 0, 1] [(ppcSlot .pcrel 0x1004 25 2 "start".toList).2.1]
def exPpcLi : St := emitted exPpcLoop [0x38, 0x60, 0, 0] [(ppcSlot .si 0x1004 15 0 "start".toList).2.1]

set_option maxRecDepth 20000 in
theorem exPpcB_emits : Emits ppc (ctxOf ppc exPpcLoop) "bl".toList ["start".toList] [0x48, 0, 0, 1] [(ppcSlot .pcrel 0x1004 25 2 "start".toList).2.1] :=
  .handler rfl (Prod.ext (by decide +kernel) rfl)
set_option maxRecDepth 20000 in
theorem exPpcLi_emits : Emits ppc (ctxOf ppc exPpcLoop) "li".toList ["r3".toList, "start".toList] [0x38, 0x60, 0, 0] [(ppcSlot .si 0x1004 15 0 "start".toList).2.1] :=
  .handler rfl (Prod.ext (by decide +kernel) rfl)

example : ∃ i, decodePpcBytes (window (link ppc .dummy exPpcB).2.bytes 4 4) = some i ∧ PpcWritten (ppcLinked exPpcLoop exPpcB) "bl".toList ["start".toList] i := by
  have h := C75_linked (s := exPpcLoop) (s1 := exPpcB) (.last rfl (by decide +kernel) rfl exPpcB_emits) exPpcB_emits
    (not_ppcOdd (by decide +kernel)) ⟨by decide, by decide⟩ (.single (pair_ok (by decide +kernel)) rfl ⟨by decide, by decide, rfl⟩)
  exact h

example : decodePpcBytes (window (link ppc .dummy exPpcB).2.bytes 4 4) = some ("bl", [0xffffff]) := by decide +kernel

example : ∃ vs n, decodePpcBytes (window (link ppc .dummy exPpcB).2.bytes 4 4) = some ("bl", vs) ∧ vs[0]? = some n ∧ 0x1004 + 4 * toSigned 24 n = 0x1000 + 0 := by
  have h := C75_branch (s := exPpcLoop) (s1 := exPpcB) (.last rfl (by decide +kernel) rfl exPpcB_emits) exPpcB_emits
    (not_ppcOdd (by decide +kernel)) ⟨by decide, by decide⟩ (.single (pair_ok (by decide +kernel)) rfl ⟨by decide, by decide, rfl⟩)
    (f := ⟨"bl", "bl", [.op 0]⟩) (op := ⟨"bl", [(31, 26, 18), (1, 1, 0), (0, 0, 1)], [⟨.relative, 25, 2⟩]⟩) (i := 0) (j := 0) (by decide +kernel) rfl rfl (by decide +kernel)
    rfl rfl rfl rfl rfl (by decide) (l := ⟨0, 0x1000, none⟩) (by decide +kernel) (by decide)
  exact h

example : ∃ i, decodePpcBytes (window (link ppc .dummy exPpcLi).2.bytes 4 4) = some i ∧ PpcWritten (ppcLinked exPpcLoop exPpcLi) "li".toList ["r3".toList, "start".toList] i := by
  have h := C75_linked (s := exPpcLoop) (s1 := exPpcLi) (.last rfl (by decide +kernel) rfl exPpcLi_emits) exPpcLi_emits
    (not_ppcOdd (by decide +kernel)) ⟨by decide, by decide⟩ (.single (pair_ok (by decide +kernel)) rfl ⟨by decide, by decide, rfl⟩)
  exact h

example : decodePpcBytes (window (link ppc .dummy exPpcLi).2.bytes 4 4) = some ("addi", [3, 0, 0x1000]) := by decide +kernel

theorem exPpcLi_operand : PpcOperandAt "li".toList ["r3".toList, "start".toList] .signed 16 "start".toList :=
  ⟨⟨"li", "addi", [.op 0, .num 0, .op 1]⟩, by decide +kernel, rfl, rfl, ⟨"addi", [(31, 26, 14)], [ppcD, ppcA0, ⟨.signed, 15, 0⟩]⟩, by decide +kernel, rfl,
    2, 1, _, rfl, rfl, rfl, rfl, rfl⟩

example : (link ppc .dummy exPpcLi).1 = .ok () := by
  refine C75_accepted (s := exPpcLoop) (s1 := exPpcLi) (.last rfl (by decide +kernel) rfl exPpcLi_emits) exPpcLi_emits
    (not_ppcOdd (by decide +kernel)) ⟨by decide, by decide⟩ (by intro e he; cases List.mem_singleton.1 he; exact ⟨by decide, by decide, rfl⟩)
    (by decide) exPpcLi_operand (l := ⟨0, 0x1000, none⟩) (by decide +kernel) (by unfold ppcReaches; decide) ?_
  intro e he hne
  cases List.mem_singleton.1 he
  exact absurd rfl hne

/-- The same with the label at 0x12345. -/
def exPpcFar : St := { exPpcLoop with labels := [("start".toList, ⟨0, 0x12345, none⟩)] }
def exPpcLiFar : St := emitted exPpcFar [0x38, 0x60, 0, 0] [(ppcSlot .si 0x1004 15 0 "start".toList).2.1]
set_option maxRecDepth 20000 in
theorem exPpcFar_emits : Emits ppc (ctxOf ppc exPpcFar) "li".toList ["r3".toList, "start".toList] [0x38, 0x60, 0, 0] [(ppcSlot .si 0x1004 15 0 "start".toList).2.1] :=
  .handler rfl (Prod.ext (by decide +kernel) rfl)

example : (link ppc .dummy exPpcLiFar).1 ≠ .ok () :=
  C75_rejected (s := exPpcFar) (s1 := exPpcLiFar) (.last rfl (by decide +kernel) rfl exPpcFar_emits) exPpcFar_emits
    (not_ppcOdd (by decide +kernel)) ⟨by decide, by decide⟩ (by intro e he; cases List.mem_singleton.1 he; exact ⟨by decide, by decide, rfl⟩)
    (by decide) exPpcLi_operand (l := ⟨0, 0x12345, none⟩) (by decide +kernel) (by unfold ppcReaches; decide)

/-- C75: of several labels in one line only the last is used; the others are lost without a word. -/
theorem C75_several : (assemble ppc {} 3 "a: nop\nbc b, b, a\nb: nop\n".toList {}).1.toOption = some () ∧
    (link ppc .dummy (assemble ppc {} 3 "a: nop\nbc b, b, a\nb: nop\n".toList {}).2).1.toOption = some () ∧
    decodePpcBytes (window (link ppc .dummy (assemble ppc {} 3 "a: nop\nbc b, b, a\nb: nop\n".toList {}).2).2.bytes 4 4) = some ("bc", [0, 0, 0x3fff]) := by
  decide +kernel

/-- C75: the field for a label holds words, but its range is checked in bytes: a branch over 0x2000 bytes with a 14-bit field is refused, although
the instruction could do it. -/
theorem C75_short {l : LabelInfo} {r : Reloc} (hprog : InProgram ppc s t rest s1) (hem : Emits ppc (ctxOf ppc s) t rest blob [r]) (ho : ¬ PpcOdd t rest)
    (hplain : r.label ≠ [] ∧ ∀ ch ∈ r.label, formulaChar ch = false) (hord : ∀ e ∈ s1.relocs, Ordinary e.2) (hpc : s.pc ≠ 0)
    (hop : PpcOperandAt t rest .relative 14 r.label) (hlk : s1.labels.lookup r.label = some l) (hfar : l.org + l.base - s.pc = 0x2000) :
    (link ppc .dummy s1).1 ≠ .ok () ∧ s.pc + 4 * toSigned 14 0x800 = l.org + l.base := by
  refine ⟨C75_rejected hprog hem ho hplain hord (by decide) hop hlk ?_, ?_⟩
  · simp only [ppcReaches, hpc, ne_eq, not_false_eq_true, and_self, if_true, hfar]
    decide
  · have : toSigned 14 0x800 = 0x800 := by decide
    omega

end Necro
