import Verif.Lemmas.M68Shape
import Verif.Lemmas.Mips32
/-!
# What each line of 68000 assembles to
-/

namespace Necro
open Spec

/-! ## mnemonics -/

/-- `m68Cond` as a function. -/
def condIdx (t : Str) : Option Nat :=
  if upper (t.take 2) = "RA".toList then some 1 else m68Conditions.findIdx? (· == upper (t.take 2))

theorem m68Cond_eq (t : Str) (c : Ctx) : m68Cond t c = match condIdx t with
    | some i => (.ok (i : Int), [])
    | none => (.error .valueError, []) := by
  unfold m68Cond condIdx
  split
  · rfl
  · cases m68Conditions.findIdx? (· == upper (t.take 2)) <;> rfl

/-- The name of the table is that of the operation in the size. -/
def nameIs (n : String) (base : String) (sz : M68Size) : Bool :=
  n.toList == (base ++ sz.suffix).toList || (sz == .word && n.toList == base.toList)

def condName (k : Nat) : String := m68CondNames.getD k ""

/-- What an entry of the table says about its mnemonic. -/
def kindOk (n : String) : M68Kind → Bool
  | .move => [M68Size.byte, .word, .long].any fun sz => nameIs n "MOVE" sz && m68Dark n.toList == (m68Bytes sz, moveCode sz)
  | .movea => [M68Size.word, .long].any fun sz => nameIs n "MOVEA" sz && m68Dark n.toList == (m68Bytes sz, moveCode sz)
  | .imm base st => [M68Op.ORI, .ANDI, .SUBI, .ADDI, .EORI, .CMPI].any fun op => [M68Size.byte, .word, .long].any fun sz =>
      nameIs n op.name sz && m68Light n.toList == (m68Bytes sz, immCode sz) && base == opCode op * 512 && st == op.status
  | .lea => n.toList == "LEA".toList || n.toList == "LEA.L".toList
  | .jump base => (n.toList == "JMP".toList && base == 0x4EC0) || (n.toList == "JSR".toList && base == 0x4E80)
  | .bcc => (List.range 16).any fun k => condIdx (n.toList.drop 1) == some k &&
      ((n.toList == ("B" ++ condName k ++ ".B").toList && (m68Dark n.toList).1 == 1) || (nameIs n ("B" ++ condName k) .word && (m68Dark n.toList).1 == 2))
  | .dbcc => condIdx (n.toList.drop 2) == none || (List.range 16).any fun k => condIdx (n.toList.drop 2) == some k &&
      (nameIs n ("DB" ++ condName k) .word || (k == 1 && nameIs n "DBRA" .word))

theorem table_ok : ∀ e ∈ m68Table, kindOk e.1 e.2 = true := by decide +kernel

theorem name_of {t : Str} {n base : String} {sz : M68Size} (ht : eqNoCase t n.toList) (h : nameIs n base sz = true) : M68Name t base sz := by
  simp only [nameIs, Bool.or_eq_true, beq_iff_eq, Bool.and_eq_true] at h
  rcases h with h | ⟨h1, h⟩
  · exact .inl (h ▸ ht)
  · exact .inr ⟨h1, h ▸ ht⟩

theorem m68Dark_congr {t u : Str} (h : eqNoCase t u) : m68Dark t = m68Dark u := by
  unfold m68Dark; rw [lower_eq_of_upper_eq h]

theorem m68Light_congr {t u : Str} (h : eqNoCase t u) : m68Light t = m68Light u := by
  unfold m68Light; rw [lower_eq_of_upper_eq h]

theorem condIdx_congr {t u : Str} (h : eqNoCase t u) (k : Nat) : condIdx (t.drop k) = condIdx (u.drop k) := by
  have e : upper ((t.drop k).take 2) = upper ((u.drop k).take 2) := by
    have h : t.map Char.toUpper = u.map Char.toUpper := h
    show ((t.drop k).take 2).map Char.toUpper = ((u.drop k).take 2).map Char.toUpper
    rw [List.map_take, List.map_drop, h, ← List.map_drop, ← List.map_take]
  unfold condIdx
  rw [e]

theorem condNames_get {k : Nat} (h : k < 16) : m68CondNames[k]? = some (condName k) := by
  have : ∀ k < 16, m68CondNames[k]? = some (condName k) := by decide
  exact this k h

theorem m68_key (t : Str) : mc68000.key t = upper t := rfl

/-- The instructions by mnemonic. -/
theorem m68_emits {c : Ctx} {t : Str} {rest : List Str} {blob : Bytes} {rels : List Reloc} (h : Emits mc68000 c t rest blob rels) :
    (rest = [] ∧ rels = [] ∧ ((eqNoCase t "RTS".toList ∧ blob = [0x4E#8, 0x75#8]) ∨ (eqNoCase t "NOP".toList ∧ blob = [0x4E#8, 0x71#8]))) ∨
    ∃ e ∈ m68Table, eqNoCase t e.1.toList ∧ m68Run e.2 (t :: rest) c = (.ok (some blob), rels) := by
  have hR : upper "RTS".toList = "RTS".toList := by decide
  have hN : upper "NOP".toList = "NOP".toList := by decide
  have hU : ∀ e ∈ m68Table, upper e.1.toList = e.1.toList := by decide +kernel
  have hi : mc68000.instrs (mc68000.key t) = if upper t = "RTS".toList then some (.fixed [0x4E#8, 0x75#8])
    else if upper t = "NOP".toList then some (.fixed [0x4E#8, 0x71#8])
    else (dget (m68Table.map fun p => (p.1.toList, p.2)) (upper t)).map fun kind => .handler (m68Run kind) := rfl
  cases h with
  | fixed hf hr =>
    left
    rw [hi] at hf
    split at hf
    · next ht => cases hf; exact ⟨hr, rfl, .inl ⟨ht.trans hR.symm, rfl⟩⟩
    · split at hf
      · next ht => cases hf; exact ⟨hr, rfl, .inr ⟨ht.trans hN.symm, rfl⟩⟩
      · cases hd : dget (m68Table.map fun p => (p.1.toList, p.2)) (upper t) with
        | none => rw [hd] at hf; cases hf
        | some k => rw [hd] at hf; cases hf
  | handler hf he =>
    right
    rw [hi] at hf
    split at hf
    · cases hf
    · split at hf
      · cases hf
      · cases hd : dget (m68Table.map fun p => (p.1.toList, p.2)) (upper t) with
        | none => rw [hd] at hf; cases hf
        | some k =>
          rw [hd] at hf
          cases hf
          obtain ⟨e, hem, hee⟩ := List.mem_map.1 (mem_of_dget hd)
          obtain ⟨h1, h2⟩ := Prod.mk.inj hee
          refine ⟨e, hem, ?_, by rw [h2]; exact he⟩
          show upper t = upper e.1.toList
          rw [hU e hem, h1]

/-! ## text -/

namespace M68Shape

inductive Text (t : Str) : M68Shape → List Str → Prop
  | move {sz f g A B} : M68Name t "MOVE" sz → f.Text A → g.Text B → Text t (.move sz f g) (A ++ B)
  | movea {sz f n A r} : M68Name t "MOVE" sz ∨ M68Name t "MOVEA" sz → f.Text A → M68Reg 'a' n r → Text t (.movea sz f n) (A ++ [r])
  | imm {op : M68Op} {sz v g B} : M68Name t op.name sz → v ≠ [] → g.Text B → Text t (.imm op sz v g) (('#' :: v) :: B)
  | ccr {op : M68Op} {v r} : eqNoCase t op.name.toList ∨ eqNoCase t (op.name ++ ".B").toList → v ≠ [] → eqNoCase r "CCR".toList →
      Text t (.status op .byte v) ['#' :: v, r]
  | sr {op : M68Op} {v r} : M68Name t op.name .word → v ≠ [] → eqNoCase r "SR".toList → Text t (.status op .word v) ['#' :: v, r]
  | lea {f n A r} : eqNoCase t "LEA".toList ∨ eqNoCase t "LEA.L".toList → f.Text A → M68Reg 'a' n r → Text t (.lea f n) (A ++ [r])
  | jump {j : Bool} {f A} : eqNoCase t (if j then "JMP" else "JSR").toList → f.Text A → Text t (.jump j f) A
  | bccB {k v} : k < 16 → eqNoCase t ("B" ++ condName k ++ ".B").toList → M68Free v → Text t (.bccB k v) [v]
  | bccW {k v} : k < 16 → M68Name t ("B" ++ condName k) .word → M68Free v → Text t (.bccW k v) [v]
  | dbcc {k n r v} : k < 16 → M68Name t ("DB" ++ condName k) .word ∨ (k = 1 ∧ M68Name t "DBRA" .word) → M68Reg 'd' n r → M68Free v →
      Text t (.dbcc k n v) [r, v]
  | rts : eqNoCase t "RTS".toList → Text t .rts []
  | nop : eqNoCase t "NOP".toList → Text t .nop []

/-- The first number or label. -/
def slot1 (pc : Int) : M68Shape → Option M68Slot
  | .move sz f _ => f.slot sz pc 0
  | .movea sz f _ => f.slot sz pc 0
  | .imm _ sz t _ => (EaForm.imm t).slot sz pc 0
  | .status _ sz t => (EaForm.imm t).slot sz pc 0
  | .lea f _ => f.slot .long pc 0
  | .jump _ f => f.slot .long pc 0
  | .bccB _ t => some (.pc, { label := t, size := 2, bitsSize := 8, bits := some (7, 0), alignment := 2, relative := pc + 2 }, false)
  | .bccW _ t => some (.pc, { label := t, size := 2, bitsSize := 16, alignment := 2, offset := 2, relative := pc + 2 }, false)
  | .dbcc _ _ t => some (.pc, { label := t, size := 2, bitsSize := 16, alignment := 2, offset := 2, relative := pc + 2 }, false)
  | _ => none

/-- The second. -/
def slot2 (pc : Int) : M68Shape → Option M68Slot
  | .move sz f g => g.slot sz pc (2 * (f.ext sz 0).length)
  | .imm _ sz _ g => g.slot sz pc (m68Bytes sz + m68Bytes sz % 2)
  | _ => none

/-- The number `v` is the one written. -/
def Gives (value : M68Use → Nat → Str → Int → Prop) (s : Option M68Slot) (v : Int) : Prop :=
  ∀ p, s = some p → ∃ x, value p.1 p.2.1.bitsSize p.2.1.label x ∧ v % 2 ^ p.2.1.bitsSize = x % 2 ^ p.2.1.bitsSize

theorem Gives.given {value : M68Use → Nat → Str → Int → Prop} {f : EaForm} {sz : M68Size} {pc : Int} {off : Nat} {v : Int}
    (h : Gives value (f.slot sz pc off) v) : f.Given value sz v := by
  intro use tok n ha
  rw [EaForm.slot_arg f sz pc off] at ha
  cases hs : f.slot sz pc off with
  | none => rw [hs] at ha; cases ha
  | some p => rw [hs] at ha; cases ha; exact h p hs

/-- The operands that are short absolute addresses. -/
def Shorts : M68Shape → Str → Prop
  | .move _ f g, t => f = .absW t ∨ g = .absW t
  | .movea _ f _, t => f = .absW t
  | .imm _ _ _ g, t => g = .absW t
  | .lea f _, t => f = .absW t
  | .jump _ f, t => f = .absW t
  | _, _ => False

/-- The instruction for the numbers written is the one written. -/
theorem Text.written {value : M68Use → Nat → Str → Int → Prop} {t : Str} {sh : M68Shape} {ts : List Str} (h : sh.Text t ts) {pc a b : Int}
    (ha : Gives value (sh.slot1 pc) a) (hb : Gives value (sh.slot2 pc) b)
    (hs : ∀ u x, sh.Shorts u → value .data 16 u x → -(2 ^ 15) ≤ x ∧ x < 2 ^ 15) : M68Written value t ts (sh.fill a b) := by
  have hmod : ∀ (v : Int) (n : Nat), ((v % 2 ^ n).toNat : Int) = v % 2 ^ n := fun v n =>
    Int.toNat_of_nonneg (Int.emod_nonneg _ (Int.ne_of_gt (Int.pow_pos (by decide))))
  cases h with
  | move hn hf hg =>
    exact .move hn (EaForm.text_ea hf ha.given (fun u x e => hs u x (.inl e))) (EaForm.text_ea hg hb.given (fun u x e => hs u x (.inr e)))
  | movea hn hf hr => exact .movea hn (EaForm.text_ea hf ha.given (fun u x e => hs u x e)) hr
  | @imm op sz v g B hn hv hg =>
    obtain ⟨x, hx, e⟩ := ha _ rfl
    simp only [show m68Bytes sz * 8 = sz.bits by cases sz <;> rfl] at hx e
    exact .imm hn hv hx ((hmod _ _).trans e) (EaForm.text_ea hg hb.given (fun u x e => hs u x e))
  | ccr hn hv hr =>
    obtain ⟨x, hx, e⟩ := ha _ rfl
    exact .ccr hn hv hx ((hmod _ _).trans e) hr
  | sr hn hv hr =>
    obtain ⟨x, hx, e⟩ := ha _ rfl
    exact .sr hn hv hx ((hmod _ _).trans e) hr
  | lea hn hf hr => exact .lea hn (EaForm.text_ea hf ha.given (fun u x e => hs u x e)) hr
  | @jump j f A hn hf =>
    cases j with
    | true => exact .jmp hn (EaForm.text_ea hf ha.given (fun u x e => hs u x e))
    | false => exact .jsr hn (EaForm.text_ea hf ha.given (fun u x e => hs u x e))
  | bccB hk hn hv =>
    obtain ⟨x, hx, e⟩ := ha _ rfl
    exact .bccB (condNames_get hk) hn hv hx ((EaForm.signed_congr8 _).trans e)
  | bccW hk hn hv =>
    obtain ⟨x, hx, e⟩ := ha _ rfl
    exact .bccW (condNames_get hk) hn hv hx ((EaForm.signed_congr16 _).trans e)
  | dbcc hk hn hr hv =>
    obtain ⟨x, hx, e⟩ := ha _ rfl
    rcases hn with hn | ⟨rfl, hn⟩
    · exact .dbcc (condNames_get hk) hn hr hv hx ((EaForm.signed_congr16 _).trans e)
    · exact .dbra hn hr hv hx ((EaForm.signed_congr16 _).trans e)
  | rts h => exact .rts h
  | nop h => exact .nop h

end M68Shape

/-! ## running -/

/-- The shapes after which further tokens are ignored. -/
def M68Shape.Open : M68Shape → Prop
  | .move _ _ _ | .imm _ _ _ _ | .jump _ _ => True
  | _ => False

/-- Reading the number or label of a slot gave `v` and the references `rels`. -/
def SlotRead (s : Option M68Slot) (c : Ctx) (v : Int) (rels : List Reloc) : Prop :=
  (s = none ∧ rels = []) ∨ ∃ p, s = some p ∧ H.parseIntegerOrLabel p.2.1 p.2.2 c = (.ok v, rels)

/-- The line is of the given shape. -/
structure M68Line (c : Ctx) (t : Str) (rest : List Str) (blob : Bytes) (rels : List Reloc) (sh : M68Shape) (used : List Str) (a b : Int)
    (ra rb : List Reloc) : Prop where
  rest : ∃ extra, rest = used ++ extra ∧ (extra ≠ [] → sh.Open)
  rels : rels = ra ++ rb
  blob : blob = bytesOf (sh.words a b)
  first : SlotRead (sh.slot1 c.pc) c a ra
  second : SlotRead (sh.slot2 c.pc) c b rb
  valid : sh.Valid
  text : sh.Text t used

theorem odd_of {t : Str} {rest pre l : List Str} (h : rest = pre ++ l) (ho : OddShape l) (value) : M68Odd value t rest := by
  rcases ho with ⟨v, u, post, rfl, hl⟩ | ⟨v, u, post, rfl, hl⟩
  · exact .pc h hl
  · exact .suffix h hl

theorem ext_length (f : EaForm) (sz : M68Size) (v w : Int) : (f.ext sz v).length = (f.ext sz w).length := by
  cases f with
  | imm t => cases sz <;> rfl
  | _ => rfl

/-- An operand after `pre`. -/
theorem operand_cases {c : Ctx} {t : Str} {rest pre l : List Str} {sz : M68Size} {size off start : Nat} {black : List M68Mode} {o : M68Operand}
    {rels : List Reloc} (hs : size = m68Bytes sz ∨ M68Mode.imm ∈ black) (hrest : rest = pre ++ l) (hst : start = 1 + pre.length)
    (hw : M68Mode.absW ∉ black) (hl : M68Mode.absL ∉ black)
    (h : m68Mode (t :: rest) start off size black c = (.ok o, rels)) :
    (∀ value, M68Odd value t rest) ∨ ∃ (f : EaForm) (used extra : List Str) (v : Int), l = used ++ extra ∧ f.Text used ∧ f.Valid ∧ f.mode ∉ black ∧
      o = ⟨start + used.length, f.modeNo, f.regNo, bytesOf (f.ext sz v)⟩ ∧ SlotRead (f.slot sz c.pc off) c v rels := by
  obtain ⟨f, used, extra, h1, h2, h3, h4⟩ := mode_cases h hw hl
  have hd : (t :: rest).drop start = l := by
    rw [hst, hrest, Nat.add_comm, List.drop_succ_cons, List.drop_append, List.drop_of_length_le (by omega)]
    simp
  rw [hd] at h1 h4
  rcases h4 with h4 | h4
  · right
    obtain ⟨v, rfl, hr⟩ := EaForm.run_ok (sz := sz) h4.valid (by
      intro hi
      rcases hs with hs | hs
      · exact hs
      · rw [← hi] at hs; exact absurd hs h2) h3
    exact ⟨f, used, extra, v, h1, h4, h4.valid, h2, rfl, hr⟩
  · exact .inl fun value => odd_of hrest h4 value

theorem match_last {t : Str} {rest pre l : List Str} {p : Pat} (hrest : rest = pre ++ l)
    (h : instrMatch (t :: rest) [p] (1 + pre.length) = true) : ∃ r, l = [r] ∧ p.matches r = true := by
  unfold instrMatch at h
  split at h
  · rw [hrest, Nat.add_comm, List.drop_succ_cons, List.drop_append, List.drop_of_length_le (by omega)] at h
    simp only [Nat.sub_self, List.drop_zero, List.nil_append] at h
    match l, h with
    | [r], h => simp only [matchAll, Bool.and_true] at h; exact ⟨r, rfl, h⟩
    | [], h => simp [matchAll] at h
    | _ :: _ :: _, h => simp [matchAll] at h
  · simp at h

theorem getD_last (t : Str) (pre : List Str) (r : Str) : (t :: (pre ++ [r])).getD (1 + pre.length) [] = r := by
  rw [Nat.add_comm, List.getD_cons_succ]
  simp [List.getD_eq_getElem?_getD]

/-- The field of a register or mode number. -/
theorem small_field {hi lo n : Nat} (h : lo ≤ hi) (hn : n < 2 ^ (hi - lo + 1)) : FieldOk ⟨hi, lo, (n : Int)⟩ := by
  refine ⟨h, ?_, ?_⟩
  · show -(2 ^ (hi - lo)) ≤ (n : Int)
    have : (0 : Int) < 2 ^ (hi - lo) := Int.pow_pos (by decide)
    omega
  · show (n : Int) < 2 ^ (hi - lo + 1)
    have : ((2 ^ (hi - lo + 1) : Nat) : Int) = 2 ^ (hi - lo + 1) := by simp
    omega

theorem small_part {hi lo n : Nat} (hn : n < 2 ^ (hi - lo + 1)) : fieldPart ⟨hi, lo, (n : Int)⟩ = ((n * 2 ^ lo : Nat) : Int) := by
  unfold fieldPart
  show (n : Int) % 2 ^ (hi - lo + 1) * 2 ^ lo = _
  have : ((2 ^ (hi - lo + 1) : Nat) : Int) = 2 ^ (hi - lo + 1) := by simp
  rw [Int.emod_eq_of_lt (by omega) (by omega)]
  simp

theorem moveCode_lt (sz : M68Size) : moveCode sz < 4 := by cases sz <;> decide
theorem immCode_lt (sz : M68Size) : immCode sz < 4 := by cases sz <;> decide

theorem build_move {s r m m' r' : Nat} (h1 : s < 4) (h2 : r < 8) (h3 : m < 8) (h4 : m' < 8) (h5 : r' < 8) (c : Ctx) :
    m68Build 0 [⟨13, 12, (s : Int)⟩, ⟨11, 9, (r : Int)⟩, ⟨8, 6, (m : Int)⟩, ⟨5, 3, (m' : Int)⟩, ⟨2, 0, (r' : Int)⟩] c =
      (.ok (bytesOf [s * 4096 + r * 512 + m * 64 + m' * 8 + r']), []) := by
  have := m68Build_of (base := 0) (W := s * 4096 + r * 512 + m * 64 + m' * 8 + r')
    (fs := [⟨13, 12, (s : Int)⟩, ⟨11, 9, (r : Int)⟩, ⟨8, 6, (m : Int)⟩, ⟨5, 3, (m' : Int)⟩, ⟨2, 0, (r' : Int)⟩])
    (by
      intro f hf
      simp only [List.mem_cons, List.not_mem_nil, or_false] at hf
      rcases hf with rfl | rfl | rfl | rfl | rfl <;> exact small_field (by decide) (by simpa using by assumption))
    (by simp) (by simp)
    (by
      simp only [List.map_cons, List.map_nil, List.foldr_cons, List.foldr_nil]
      rw [small_part (by simpa using h1), small_part (by simpa using h2), small_part (by simpa using h3), small_part (by simpa using h4),
        small_part (by simpa using h5)]
      omega) c
  rw [bytesOf_one] at this
  refine this.trans ?_
  congr 4
  omega

theorem build_movea {s r m' r' : Nat} (h1 : s < 4) (h2 : r < 8) (h4 : m' < 8) (h5 : r' < 8) (c : Ctx) :
    m68Build 0x0040 [⟨13, 12, (s : Int)⟩, ⟨11, 9, (r : Int)⟩, ⟨5, 3, (m' : Int)⟩, ⟨2, 0, (r' : Int)⟩] c =
      (.ok (bytesOf [s * 4096 + r * 512 + 64 + m' * 8 + r']), []) := by
  have := m68Build_of (base := 0x40) (W := s * 4096 + r * 512 + 64 + m' * 8 + r')
    (fs := [⟨13, 12, (s : Int)⟩, ⟨11, 9, (r : Int)⟩, ⟨5, 3, (m' : Int)⟩, ⟨2, 0, (r' : Int)⟩])
    (by
      intro f hf
      simp only [List.mem_cons, List.not_mem_nil, or_false] at hf
      rcases hf with rfl | rfl | rfl | rfl <;> exact small_field (by decide) (by simpa using by assumption))
    (by simp) (by simp)
    (by
      simp only [List.map_cons, List.map_nil, List.foldr_cons, List.foldr_nil]
      rw [small_part (by simpa using h1), small_part (by simpa using h2), small_part (by simpa using h4), small_part (by simpa using h5)]
      omega) c
  rw [bytesOf_one] at this
  refine this.trans ?_
  congr 4
  omega

theorem build_imm {op : M68Op} {s m' r' : Nat} (h1 : s < 4) (h4 : m' < 8) (h5 : r' < 8) (c : Ctx) :
    m68Build ((opCode op * 512 : Nat) : Int) [⟨7, 6, (s : Int)⟩, ⟨5, 3, (m' : Int)⟩, ⟨2, 0, (r' : Int)⟩] c =
      (.ok (bytesOf [opCode op * 512 + s * 64 + m' * 8 + r']), []) := by
  have ho : opCode op < 8 := by cases op <;> decide
  have := m68Build_of (base := opCode op * 512) (W := opCode op * 512 + s * 64 + m' * 8 + r')
    (fs := [⟨7, 6, (s : Int)⟩, ⟨5, 3, (m' : Int)⟩, ⟨2, 0, (r' : Int)⟩])
    (by
      intro f hf
      simp only [List.mem_cons, List.not_mem_nil, or_false] at hf
      rcases hf with rfl | rfl | rfl <;> exact small_field (by decide) (by simpa using by assumption))
    (by simp; omega) (by simp)
    (by
      simp only [List.map_cons, List.map_nil, List.foldr_cons, List.foldr_nil]
      rw [small_part (by simpa using h1), small_part (by simpa using h4), small_part (by simpa using h5)]
      omega) c
  rw [bytesOf_one] at this
  refine this.trans ?_
  congr 4
  omega

theorem build_status {op : M68Op} {s : Nat} (hs : s = 0x3C ∨ s = 0x7C) (c : Ctx) :
    m68Build ((opCode op * 512 : Nat) + (s : Int)) [] c = (.ok (bytesOf [opCode op * 512 + s]), []) := by
  have ho : opCode op < 8 := by cases op <;> decide
  have := m68Build_of (base := opCode op * 512 + s) (W := opCode op * 512 + s) (fs := []) (by simp) (by simp) (by simp) (by simp) c
  rw [bytesOf_one] at this
  refine (show m68Build ((opCode op * 512 : Nat) + (s : Int)) [] c = m68Build ((opCode op * 512 + s : Nat) : Int) [] c by simp).trans (this.trans ?_)
  congr 4
  omega

theorem build_lea {r m' r' : Nat} (h2 : r < 8) (h4 : m' < 8) (h5 : r' < 8) (c : Ctx) :
    m68Build 0x41C0 [⟨11, 9, (r : Int)⟩, ⟨5, 3, (m' : Int)⟩, ⟨2, 0, (r' : Int)⟩] c =
      (.ok (bytesOf [0x41C0 + r * 512 + m' * 8 + r']), []) := by
  have := m68Build_of (base := 0x41C0) (W := 0x41C0 + r * 512 + m' * 8 + r')
    (fs := [⟨11, 9, (r : Int)⟩, ⟨5, 3, (m' : Int)⟩, ⟨2, 0, (r' : Int)⟩])
    (by
      intro f hf
      simp only [List.mem_cons, List.not_mem_nil, or_false] at hf
      rcases hf with rfl | rfl | rfl <;> exact small_field (by decide) (by simpa using by assumption))
    (by simp) (by simp)
    (by
      simp only [List.map_cons, List.map_nil, List.foldr_cons, List.foldr_nil]
      rw [small_part (by simpa using h2), small_part (by simpa using h4), small_part (by simpa using h5)]
      omega) c
  rw [bytesOf_one] at this
  refine this.trans ?_
  congr 4
  omega

theorem build_jump {base m' r' : Nat} (hb : base = 0x4EC0 ∨ base = 0x4E80) (h4 : m' < 8) (h5 : r' < 8) (c : Ctx) :
    m68Build (base : Int) [⟨5, 3, (m' : Int)⟩, ⟨2, 0, (r' : Int)⟩] c = (.ok (bytesOf [base + m' * 8 + r']), []) := by
  have := m68Build_of (base := base) (W := base + m' * 8 + r')
    (fs := [⟨5, 3, (m' : Int)⟩, ⟨2, 0, (r' : Int)⟩])
    (by
      intro f hf
      simp only [List.mem_cons, List.not_mem_nil, or_false] at hf
      rcases hf with rfl | rfl <;> exact small_field (by decide) (by simpa using by assumption))
    (by simp; omega) (by simp)
    (by
      simp only [List.map_cons, List.map_nil, List.foldr_cons, List.foldr_nil]
      rw [small_part (by simpa using h4), small_part (by simpa using h5)]
      omega) c
  rw [bytesOf_one] at this
  refine this.trans ?_
  congr 4
  omega

theorem build_bccB {k : Nat} {v : Int} (hk : k < 16) (h1 : -128 ≤ v) (h2 : v < 256) (c : Ctx) :
    m68Build 0x6000 [⟨11, 8, (k : Int)⟩, ⟨7, 0, v⟩] c = (.ok (bytesOf [0x6000 + k * 256 + (v % 256).toNat]), []) := by
  have := m68Build_of (base := 0x6000) (W := 0x6000 + k * 256 + (v % 256).toNat)
    (fs := [⟨11, 8, (k : Int)⟩, ⟨7, 0, v⟩])
    (by
      intro f hf
      simp only [List.mem_cons, List.not_mem_nil, or_false] at hf
      rcases hf with rfl | rfl
      · exact small_field (by decide) (by simpa using hk)
      · exact ⟨by simp, h1, h2⟩)
    (by simp) (by simp)
    (by
      simp only [List.map_cons, List.map_nil, List.foldr_cons, List.foldr_nil]
      rw [small_part (by simpa using hk)]
      show _ + (_ + (v % 256 * 2 ^ 0 + 0)) = _
      omega) c
  rw [bytesOf_one] at this
  refine this.trans ?_
  congr 4
  omega

theorem build_bccW {k : Nat} (hk : k < 16) (c : Ctx) : m68Build 0x6000 [⟨11, 8, (k : Int)⟩] c = (.ok (bytesOf [0x6000 + k * 256]), []) := by
  have : ∀ k : Nat, k < 16 → packBitsBe16u 0x6000 [⟨11, 8, (k : Int)⟩] = .ok (bytesOf [0x6000 + k * 256]) := by decide +kernel
  unfold m68Build
  rw [this k hk]; rfl

theorem build_dbcc {k n : Nat} (hk : k < 16) (hn : n < 8) (c : Ctx) :
    m68Build 0x50C8 [⟨11, 8, (k : Int)⟩, ⟨2, 0, (n : Int)⟩] c = (.ok (bytesOf [0x50C8 + k * 256 + n]), []) := by
  have : ∀ k : Nat, k < 16 → ∀ n : Nat, n < 8 → packBitsBe16u 0x50C8 [⟨11, 8, (k : Int)⟩, ⟨2, 0, (n : Int)⟩] = .ok (bytesOf [0x50C8 + k * 256 + n]) := by decide +kernel
  unfold m68Build
  rw [this k hk n hn]; rfl

end Necro
