import Verif.Lemmas.M68Lines
/-!
# Lines of 68000 the assembler accepts
-/

namespace Necro
open Spec

variable {c : Ctx} {t : Str} {rest : List Str} {blob : Bytes} {rels : List Reloc}

theorem m68_emits_of {n : String} {kind : M68Kind} (hmem : (n, kind) ∈ m68Table) (ht : eqNoCase t n.toList)
    (hrun : m68Run kind (t :: rest) c = (.ok (some blob), rels)) : Emits mc68000 c t rest blob rels := by
  have key : ∀ e ∈ m68Table, dget (m68Table.map fun p => (p.1.toList, p.2)) e.1.toList = some e.2 ∧ upper e.1.toList = e.1.toList ∧
      e.1.toList ≠ "RTS".toList ∧ e.1.toList ≠ "NOP".toList := by decide +kernel
  obtain ⟨h1, h2, h3, h4⟩ := key _ hmem
  have hu : mc68000.key t = n.toList := (show upper t = upper n.toList from ht).trans h2
  refine .handler (f := m68Run kind) ?_ hrun
  rw [hu]
  show (if n.toList = "RTS".toList then some (InstrDef.fixed [0x4E#8, 0x75#8])
    else if n.toList = "NOP".toList then some (InstrDef.fixed [0x4E#8, 0x71#8])
    else (dget (m68Table.map fun p => (p.1.toList, p.2)) n.toList).map fun kind => InstrDef.handler (m68Run kind)) = _
  rw [if_neg h3, if_neg h4, h1]
  rfl

/-- A name with a size is in the table. -/
theorem named {base : String} {kind : M68Kind} {sz : M68Size} {P : Str → Prop} (hP : ∀ {t u}, eqNoCase t u → P u → P t)
    (h1 : (base ++ sz.suffix, kind) ∈ m68Table ∧ P (base ++ sz.suffix).toList)
    (h2 : sz = .word → (base, kind) ∈ m68Table ∧ P base.toList) (hn : M68Name t base sz) :
    P t ∧ ∃ n, (n, kind) ∈ m68Table ∧ eqNoCase t n.toList := by
  rcases hn with hn | ⟨hw, hn⟩
  · exact ⟨hP hn h1.2, _, h1.1, hn⟩
  · exact ⟨hP hn (h2 hw).2, _, (h2 hw).1, hn⟩

theorem named_move {sz : M68Size} (hn : M68Name t "MOVE" sz) :
    m68Dark t = (m68Bytes sz, moveCode sz) ∧ ∃ n, (n, M68Kind.move) ∈ m68Table ∧ eqNoCase t n.toList := by
  refine named (P := fun t => m68Dark t = (m68Bytes sz, moveCode sz)) (fun h e => (m68Dark_congr h).trans e) ?_ ?_ hn
  · cases sz <;> decide +kernel
  · rintro rfl; decide +kernel

theorem named_movea {sz : M68Size} (hz : sz ≠ .byte) (hn : M68Name t "MOVEA" sz) :
    m68Dark t = (m68Bytes sz, moveCode sz) ∧ ∃ n, (n, M68Kind.movea) ∈ m68Table ∧ eqNoCase t n.toList := by
  refine named (P := fun t => m68Dark t = (m68Bytes sz, moveCode sz)) (fun h e => (m68Dark_congr h).trans e) ?_ ?_ hn
  · cases sz
    · exact absurd rfl hz
    · decide +kernel
    · decide +kernel
  · rintro rfl; decide +kernel

theorem named_imm {op : M68Op} {sz : M68Size} (hn : M68Name t op.name sz) :
    m68Light t = (m68Bytes sz, immCode sz) ∧ ∃ n, (n, M68Kind.imm (opCode op * 512) op.status) ∈ m68Table ∧ eqNoCase t n.toList := by
  refine named (P := fun t => m68Light t = (m68Bytes sz, immCode sz)) (fun h e => (m68Light_congr h).trans e) ?_ ?_ hn
  · cases op <;> cases sz <;> decide +kernel
  · rintro rfl; cases op <;> decide +kernel

theorem named_bcc {k : Nat} (hk : k < 16) (h2 : 2 ≤ k) (hn : M68Name t ("B" ++ condName k) .word) :
    (condIdx (t.drop 1) = some k ∧ (m68Dark t).1 = 2) ∧ ∃ n, (n, M68Kind.bcc) ∈ m68Table ∧ eqNoCase t n.toList := by
  have key : ∀ k < 16, 2 ≤ k → ("B" ++ condName k ++ M68Size.word.suffix, M68Kind.bcc) ∈ m68Table ∧
      condIdx (("B" ++ condName k ++ M68Size.word.suffix).toList.drop 1) = some k ∧
      (m68Dark ("B" ++ condName k ++ M68Size.word.suffix).toList).1 = 2 := by decide +kernel
  have key' : ∀ k < 16, 2 ≤ k → ("B" ++ condName k, M68Kind.bcc) ∈ m68Table ∧ condIdx (("B" ++ condName k).toList.drop 1) = some k ∧
      (m68Dark ("B" ++ condName k).toList).1 = 2 := by decide +kernel
  exact named (P := fun t => condIdx (t.drop 1) = some k ∧ (m68Dark t).1 = 2)
    (fun h e => ⟨(condIdx_congr h 1).trans e.1, by rw [m68Dark_congr h]; exact e.2⟩) (key k hk h2) (fun _ => key' k hk h2) hn

theorem named_bccB {k : Nat} (hk : k < 16) (h2 : 2 ≤ k) (hn : eqNoCase t ("B" ++ condName k ++ ".B").toList) :
    (condIdx (t.drop 1) = some k ∧ (m68Dark t).1 = 1) ∧ ∃ n, (n, M68Kind.bcc) ∈ m68Table ∧ eqNoCase t n.toList := by
  have key : ∀ k < 16, 2 ≤ k → ("B" ++ condName k ++ ".B", M68Kind.bcc) ∈ m68Table ∧ condIdx (("B" ++ condName k ++ ".B").toList.drop 1) = some k ∧
      (m68Dark ("B" ++ condName k ++ ".B").toList).1 = 1 := by decide +kernel
  obtain ⟨h1, h3, h4⟩ := key k hk h2
  exact ⟨⟨(condIdx_congr hn 1).trans h3, by rw [m68Dark_congr hn]; exact h4⟩, _, h1, hn⟩

theorem named_dbcc {k : Nat} (hk : k < 16) (hn : M68Name t ("DB" ++ condName k) .word ∨ (k = 1 ∧ M68Name t "DBRA" .word))
    (hw : ¬ eqNoCase t "DBT.W".toList ∧ ¬ eqNoCase t "DBF.W".toList) :
    condIdx (t.drop 2) = some k ∧ ∃ n, (n, M68Kind.dbcc) ∈ m68Table ∧ eqNoCase t n.toList := by
  have key : ∀ k < 16, ("DB" ++ condName k, M68Kind.dbcc) ∈ m68Table ∧ condIdx (("DB" ++ condName k).toList.drop 2) = some k ∧
      (2 ≤ k → ("DB" ++ condName k ++ M68Size.word.suffix, M68Kind.dbcc) ∈ m68Table ∧ condIdx (("DB" ++ condName k ++ M68Size.word.suffix).toList.drop 2) = some k) := by
    decide +kernel
  obtain ⟨h1, h2, h3⟩ := key k hk
  rcases hn with (hn | ⟨-, hn⟩) | ⟨rfl, hn⟩
  · by_cases h2k : 2 ≤ k
    · exact ⟨(condIdx_congr hn 2).trans (h3 h2k).2, _, (h3 h2k).1, hn⟩
    · have : k = 0 ∨ k = 1 := by omega
      rcases this with rfl | rfl
      · exact absurd hn hw.1
      · exact absurd hn hw.2
  · exact ⟨(condIdx_congr hn 2).trans h2, _, h1, hn⟩
  · refine named (P := fun t => condIdx (t.drop 2) = some 1) (fun h e => (condIdx_congr h 2).trans e) ?_ ?_ hn
    · decide +kernel
    · intro _; decide +kernel

/-! ## running -/

/-- Names that are read as something else where a number or label could be. -/
def reservedName (u : Str) : Prop :=
  u = ['+'] ∨ u = ['-'] ∨ (Pat.str "CCR".toList).matches u = true ∨ (Pat.str "SR".toList).matches u = true

def SlotSafe (s : Option M68Slot) : Prop := ∀ p, s = some p → ¬ reservedName p.2.1.label

theorem text_head {f : EaForm} {ts : List Str} {sz : M68Size} {pc : Int} {off : Nat} (h : f.Text ts) (hs : SlotSafe (f.slot sz pc off)) :
    ts.head? ≠ some ['+'] ∧ (ts.head? = some ['-'] → f.mode = .pre) := by
  have hr : ∀ {k n t}, M68Reg k n t → t ≠ ['+'] ∧ t ≠ ['-'] := by
    intro k n t h
    obtain ⟨a, rfl, -⟩ := h.shape
    simp
  have hw : ∀ {v s : Str} {l : String}, eqNoCase s l.toList → l.toList.length = 2 → v ++ s ≠ ['+'] ∧ v ++ s ≠ ['-'] := by
    intro v s l h hl
    have : s.length = 2 := by simpa [hl] using congrArg List.length h
    constructor <;> (intro e; have := congrArg List.length e; simp at this; omega)
  cases h with
  | dn h => simp only [List.head?_cons, ne_eq, Option.some.injEq]; exact ⟨(hr h).1, fun e => absurd e (hr h).2⟩
  | an h => simp only [List.head?_cons, ne_eq, Option.some.injEq]; exact ⟨(hr h).1, fun e => absurd e (hr h).2⟩
  | absW' h h' => simp only [List.head?_cons, ne_eq, Option.some.injEq]; exact ⟨(hw h' rfl).1, fun e => absurd e (hw h' rfl).2⟩
  | absL' h h' => simp only [List.head?_cons, ne_eq, Option.some.injEq]; exact ⟨(hw h' rfl).1, fun e => absurd e (hw h' rfl).2⟩
  | abs h h' =>
    have := hs _ rfl
    simp only [reservedName, not_or] at this
    simp only [List.head?_cons, ne_eq, Option.some.injEq]
    exact ⟨this.1, fun e => absurd e this.2.1⟩
  | pre h => simp [EaForm.mode]
  | _ => simp

/-- Reading an operand that is there. -/
theorem mode_run {tokens : List Str} {start off size : Nat} {black : List M68Mode} {f : EaForm} {used extra : List Str} {sz : M68Size} {v : Int}
    (hL : tokens.drop start = used ++ extra) (hb : f.mode ∉ black) (ht : f.Text used) (hp : extra.head? ≠ some ['+'])
    (hs : f.mode = .imm → size = m68Bytes sz) (hsafe : SlotSafe (f.slot sz c.pc off)) (hr : SlotRead (f.slot sz c.pc off) c v rels) :
    m68Mode tokens start off size black c = (.ok ⟨start + used.length, f.modeNo, f.regNo, bytesOf (f.ext sz v)⟩, rels) := by
  rw [mode_of hL hb ht hp (text_head ht hsafe).2]
  rcases hr with ⟨h1, rfl⟩ | ⟨p, h1, h2⟩
  · exact EaForm.run_none h1 v
  · exact EaForm.run_of ht.valid hs h1 h2

theorem match_last_of {pre : List Str} {r : Str} {p : Pat} (hr : p.matches r = true) (i : Nat) (hi : i = 1 + pre.length) :
    instrMatch (t :: (pre ++ [r])) [p] i = true := by
  subst hi
  unfold instrMatch
  rw [if_pos (by simp; omega), Nat.add_comm, List.drop_succ_cons, List.drop_append, List.drop_of_length_le (by omega)]
  simp [matchAll, hr]

theorem toAddress_of {sz : M68Size} {f : EaForm} {used : List Str} {v : Int} {r : Str} {n : Nat} (hf : f.Valid) (hn : M68Reg 'a' n r) :
    m68ToAddress (t :: (used ++ [r])) (moveCode sz) ⟨1 + used.length, f.modeNo, f.regNo, bytesOf (f.ext sz v)⟩ c =
      (.ok (some (bytesOf ((M68Shape.movea sz f n).words v 0))), []) := by
  unfold m68ToAddress
  rw [getD_last, H.bind_run (m68Reg_of hn c)]
  rw [H.bind_run (build_movea (moveCode_lt sz) hn.1 (EaForm.regNo_lt hf).2 (EaForm.regNo_lt hf).1 c)]
  rw [words_bytes]
  simp [M68Shape.seg1, M68Shape.seg2, bytesOf, M68Shape.head]

/-- A destination is not taken for an address register or the status register. -/
theorem text_not_status {g : EaForm} {ts : List Str} {sz : M68Size} {pc : Int} {off : Nat} (h : g.Text ts) (hb : g.mode ∉ m68Alterable)
    (hs : SlotSafe (g.slot sz pc off)) (s : String) (hsr : s = "CCR" ∨ s = "SR") : ∀ u, ts = [u] → (Pat.str s.toList).matches u = false := by
  have hlen : ∀ {u : Str}, (Pat.str s.toList).matches u = true → eqNoCase u s.toList ∨ u.length = 1 := by
    intro u hm
    rcases (matches_name u s).1 hm with h | ⟨x, -, h⟩
    · exact .inl h
    · exact .inr (by simpa using congrArg List.length h)
  have hl : s.toList.length = 3 ∨ s.toList.length = 2 := by rcases hsr with rfl | rfl <;> simp
  have hw : ∀ {v u : Str} {l : String}, eqNoCase u l.toList → l = ".W" ∨ l = ".L" → (Pat.str s.toList).matches (v ++ u) = false := by
    intro v u l h h2
    rw [Bool.eq_false_iff]
    intro hm
    have hul : u.length = 2 := by rcases h2 with rfl | rfl <;> simpa using congrArg List.length h
    have hdot : ∃ y, upper u = ['.', y] := by
      rcases h2 with rfl | rfl
      · exact ⟨'W', h⟩
      · exact ⟨'L', h⟩
    obtain ⟨y, hy⟩ := hdot
    rcases hlen hm with h3 | h3
    · have h3 : upper (v ++ u) = upper s.toList := h3
      have : upper (v ++ u) = upper v ++ upper u := by simp [upper]
      rw [this, hy] at h3
      have : '.' ∈ upper s.toList := by rw [← h3]; simp
      rcases hsr with rfl | rfl <;> revert this <;> decide
    · simp at h3; omega
  intro u hu
  cases h with
  | @dn n x h =>
    cases hu
    rw [Bool.eq_false_iff]
    intro hm
    obtain ⟨a, rfl, -⟩ := h.shape
    rcases hlen hm with h3 | h3
    · rcases hsr with rfl | rfl
      · have := congrArg List.length h3; simp at this
      · have h8 := h.1
        have h4 : ∀ n < 8, (Nat.digitChar n).toUpper ≠ 'R' := by decide +kernel
        unfold eqNoCase at h3
        simp at h3
        exact h4 n h8 h3.2
    · simp at h3
  | an h => simp [EaForm.mode, m68Alterable] at hb
  | imm h => simp [EaForm.mode, m68Alterable] at hb
  | absW' h h' => cases hu; exact hw h' (.inl rfl)
  | absL' h h' => cases hu; exact hw h' (.inr rfl)
  | abs h h' =>
    cases hu
    have := hs _ rfl
    simp only [reservedName, not_or, Bool.not_eq_true] at this
    rcases hsr with rfl | rfl
    · exact this.2.2.1
    · exact this.2.2.2
  | _ => cases hu

/-- Names not in the table. -/
def M68Shape.NoName (t : Str) : M68Shape → Prop
  | .bccB k _ | .bccW k _ => k < 2
  | .dbcc _ _ _ => eqNoCase t "DBT.W".toList ∨ eqNoCase t "DBF.W".toList
  | _ => False

theorem alterable_not_reg {g : EaForm} {ts : List Str} (h : g.Text ts) (hb : g.mode ∉ m68Alterable) : ∀ u, ts = [u] → (Pat.coll m68A).matches u = false := by
  intro u hu
  cases h with
  | @dn n x h =>
    cases hu
    refine notA fun k hk => ?_
    obtain ⟨a, rfl, ha⟩ := h.shape
    obtain ⟨b, hb, hb'⟩ := hk.shape
    simp at hb
    rw [hb.1] at ha
    rw [ha] at hb'
    exact absurd hb' (by decide)
  | an h => simp [EaForm.mode, m68Alterable] at hb
  | imm h => simp [EaForm.mode, m68Alterable] at hb
  | absW' h h' => cases hu; exact (free_facts h).1
  | absL' h h' => cases hu; exact (free_facts h).1
  | abs h h' => cases hu; exact (free_facts h).1
  | _ => cases hu

theorem no_slot {b : Int} {rb : List Reloc} : SlotRead none c b rb → rb = [] := by
  rintro (⟨-, h⟩ | ⟨p, h, -⟩)
  · exact h
  · cases h

theorem some_slot {p : M68Slot} {v : Int} {r : List Reloc} : SlotRead (some p) c v r → H.parseIntegerOrLabel p.2.1 p.2.2 c = (.ok v, r) := by
  rintro (⟨h, -⟩ | ⟨q, h, h'⟩)
  · cases h
  · cases h; exact h'

set_option linter.unusedVariables false in
theorem line_ccr {op : M68Op} {v r : Str} {a b : Int} {ra rb : List Reloc} (hname : eqNoCase t op.name.toList ∨ eqNoCase t (op.name ++ ".B").toList) (hv0 : v ≠ []) (hr : eqNoCase r "CCR".toList)
    (hv : (M68Shape.status op .byte v).Valid) (hn : ¬ (M68Shape.status op .byte v).NoName t) (ha : SlotRead ((M68Shape.status op .byte v).slot1 c.pc) c a ra) (hb : SlotRead ((M68Shape.status op .byte v).slot2 c.pc) c b rb)
    (sa : SlotSafe ((M68Shape.status op .byte v).slot1 c.pc)) : Emits mc68000 c t ['#' :: v, r] (bytesOf ((M68Shape.status op .byte v).words a b)) (ra ++ rb) := by
  cases no_slot hb
  rw [List.append_nil]
  have hname' : ∃ n, (n, M68Kind.imm (opCode op * 512) op.status) ∈ m68Table ∧ eqNoCase t n.toList := by
    rcases hname with h | h
    · exact (named_imm (sz := .word) (.inr ⟨rfl, h⟩)).2
    · exact (named_imm (sz := .byte) (.inl h)).2
  obtain ⟨n, hmem, hnn⟩ := hname'
  refine m68_emits_of hmem hnn ?_
  simp only [m68Run]
  rw [if_pos ⟨hv.1, by
    rw [instrMatch_cons]
    simp only [matchAll, matches_pred, (m68IsImm_iff ('#' :: v)).2 ⟨v, hv0, rfl⟩, (matches_name r "CCR").2 (.inl hr), Bool.and_self]⟩]
  refine lift_bind (m68Packer_of (sz := .byte) (pc := c.pc) (t := v) (off := 0) rfl (some_slot ha)) ?_
  refine lift_bind (build_status (op := op) (s := 0x3C) (.inl rfl) c) ?_
  rw [words_bytes]
  simp [M68Shape.seg1, M68Shape.seg2, bytesOf, M68Shape.head, immCode]

set_option linter.unusedVariables false in
theorem line_sr {op : M68Op} {v r : Str} {a b : Int} {ra rb : List Reloc} (hname : M68Name t op.name .word) (hv0 : v ≠ []) (hr : eqNoCase r "SR".toList)
    (hv : (M68Shape.status op .word v).Valid) (hn : ¬ (M68Shape.status op .word v).NoName t) (ha : SlotRead ((M68Shape.status op .word v).slot1 c.pc) c a ra) (hb : SlotRead ((M68Shape.status op .word v).slot2 c.pc) c b rb)
    (sa : SlotSafe ((M68Shape.status op .word v).slot1 c.pc)) : Emits mc68000 c t ['#' :: v, r] (bytesOf ((M68Shape.status op .word v).words a b)) (ra ++ rb) := by
  cases no_slot hb
  rw [List.append_nil]
  obtain ⟨-, n, hmem, hnn⟩ := named_imm hname
  refine m68_emits_of hmem hnn ?_
  simp only [m68Run]
  have hnc : (Pat.str "CCR".toList).matches r = false := by
    rw [Bool.eq_false_iff]
    intro hm
    have hl : r.length = 2 := by simpa using congrArg List.length hr
    rcases (matches_name r "CCR").1 hm with h | ⟨x, -, h⟩
    · have := congrArg List.length h; simp [hl] at this
    · have := congrArg List.length h; simp [hl] at this
  rw [if_neg (by rw [instrMatch_cons]; simp only [matchAll, hnc]; simp), if_pos ⟨hv.1, by
    rw [instrMatch_cons]
    simp only [matchAll, matches_pred, (m68IsImm_iff ('#' :: v)).2 ⟨v, hv0, rfl⟩, (matches_name r "SR").2 (.inl hr), Bool.and_self]⟩]
  refine lift_bind (m68Packer_of (sz := .word) (pc := c.pc) (t := v) (off := 0) rfl (some_slot ha)) ?_
  refine lift_bind (build_status (op := op) (s := 0x7C) (.inr rfl) c) ?_
  have e : (M68Shape.status op .word v).head a = opCode op * 512 + 0x7C := by simp only [M68Shape.head, immCode]
  rw [words_bytes, e]
  simp [M68Shape.seg1, M68Shape.seg2, bytesOf]

set_option linter.unusedVariables false in
theorem line_lea {f : EaForm} {n : Nat} {A : List Str} {r : Str} {a b : Int} {ra rb : List Reloc} (hname : eqNoCase t "LEA".toList ∨ eqNoCase t "LEA.L".toList) (hf : f.Text A) (hr : M68Reg 'a' n r)
    (hv : (M68Shape.lea f n).Valid) (hn : ¬ (M68Shape.lea f n).NoName t) (ha : SlotRead ((M68Shape.lea f n).slot1 c.pc) c a ra) (hb : SlotRead ((M68Shape.lea f n).slot2 c.pc) c b rb)
    (sa : SlotSafe ((M68Shape.lea f n).slot1 c.pc)) : Emits mc68000 c t (A ++ [r]) (bytesOf ((M68Shape.lea f n).words a b)) (ra ++ rb) := by
  obtain ⟨v1, v2, v3⟩ := hv
  cases no_slot hb
  rw [List.append_nil]
  have hname' : ∃ n, (n, M68Kind.lea) ∈ m68Table ∧ eqNoCase t n.toList := by
    rcases hname with h | h
    · exact ⟨_, by decide +kernel, h⟩
    · exact ⟨_, by decide +kernel, h⟩
  obtain ⟨m, hmem, hnn⟩ := hname'
  refine m68_emits_of hmem hnn ?_
  simp only [m68Run]
  refine lift_bind (mode_run (start := 1) (used := A) (extra := [r]) (sz := .long) rfl v3 hf ?_ (fun _ => rfl) sa ha) ?_
  · obtain ⟨x, rfl, -⟩ := hr.shape; simp
  · simp only
    rw [if_pos (match_last_of ((matches_m68A r).2 ⟨n, hr⟩) _ rfl), getD_last, H.bind_run (m68Reg_of hr c),
      H.bind_run (build_lea hr.1 (EaForm.regNo_lt v1).2 (EaForm.regNo_lt v1).1 c), words_bytes]
    simp [M68Shape.seg1, M68Shape.seg2, bytesOf, M68Shape.head]

set_option linter.unusedVariables false in
theorem line_jump {j : Bool} {f : EaForm} {A : List Str} {a b : Int} {ra rb : List Reloc} (hname : eqNoCase t (if j then "JMP" else "JSR").toList) (hf : f.Text A)
    (hv : (M68Shape.jump j f).Valid) (hn : ¬ (M68Shape.jump j f).NoName t) (ha : SlotRead ((M68Shape.jump j f).slot1 c.pc) c a ra) (hb : SlotRead ((M68Shape.jump j f).slot2 c.pc) c b rb)
    (sa : SlotSafe ((M68Shape.jump j f).slot1 c.pc)) : Emits mc68000 c t A (bytesOf ((M68Shape.jump j f).words a b)) (ra ++ rb) := by
  obtain ⟨v1, v3⟩ := hv
  cases no_slot hb
  rw [List.append_nil]
  refine m68_emits_of (n := if j then "JMP" else "JSR") (kind := .jump (if j then 0x4EC0 else 0x4E80)) (by cases j <;> decide +kernel) hname ?_
  simp only [m68Run]
  refine lift_bind (mode_run (start := 1) (used := A) (extra := []) (sz := .long) (by simp) v3 hf (by simp) ?_ sa ha) ?_
  · intro hi; rw [hi] at v3; exact absurd v3 (by decide)
  · simp only
    rw [H.bind_run (build_jump (by cases j <;> simp) (EaForm.regNo_lt v1).2 (EaForm.regNo_lt v1).1 c), words_bytes]
    simp [M68Shape.seg1, M68Shape.seg2, bytesOf, M68Shape.head]

set_option linter.unusedVariables false in
theorem line_bccB {k : Nat} {v : Str} {a b : Int} {ra rb : List Reloc} (hk : k < 16) (hname : eqNoCase t ("B" ++ condName k ++ ".B").toList) (hf : M68Free v)
    (hv : (M68Shape.bccB k v).Valid) (hn : ¬ (M68Shape.bccB k v).NoName t) (ha : SlotRead ((M68Shape.bccB k v).slot1 c.pc) c a ra) (hb : SlotRead ((M68Shape.bccB k v).slot2 c.pc) c b rb) :
    Emits mc68000 c t [v] (bytesOf ((M68Shape.bccB k v).words a b)) (ra ++ rb) := by
  cases no_slot hb
  rw [List.append_nil]
  simp only [M68Shape.NoName, Nat.not_lt] at hn
  obtain ⟨⟨hc, hd⟩, n, hmem, hnn⟩ := named_bccB hk hn hname
  refine m68_emits_of hmem hnn ?_
  simp only [m68Run]
  have hp := some_slot ha
  obtain ⟨y, -, -, hb1, hb2⟩ := operand_bounds (by simp) hp
  rw [if_pos (by rw [instrMatch_cons]; simp [matchAll, matches_pred, (m68Free_iff v).2 hf])]
  simp only [List.getD_cons_zero]
  rw [H.bind_run (show m68Cond (t.drop 1) c = (.ok (k : Int), []) by rw [m68Cond_eq, hc]), H.bind_run (show H.read c = (.ok c, []) from rfl), if_pos hd]
  refine lift_bind hp ?_
  rw [H.bind_run (build_bccB hk (by simpa using hb1) (by simpa using hb2) c)]
  rfl

set_option linter.unusedVariables false in
theorem line_bccW {k : Nat} {v : Str} {a b : Int} {ra rb : List Reloc} (hk : k < 16) (hname : M68Name t ("B" ++ condName k) .word) (hf : M68Free v)
    (hv : (M68Shape.bccW k v).Valid) (hn : ¬ (M68Shape.bccW k v).NoName t) (ha : SlotRead ((M68Shape.bccW k v).slot1 c.pc) c a ra) (hb : SlotRead ((M68Shape.bccW k v).slot2 c.pc) c b rb) :
    Emits mc68000 c t [v] (bytesOf ((M68Shape.bccW k v).words a b)) (ra ++ rb) := by
  cases no_slot hb
  rw [List.append_nil]
  simp only [M68Shape.NoName, Nat.not_lt] at hn
  obtain ⟨⟨hc, hd⟩, n, hmem, hnn⟩ := named_bcc hk hn hname
  refine m68_emits_of hmem hnn ?_
  simp only [m68Run]
  rw [if_pos (by rw [instrMatch_cons]; simp [matchAll, matches_pred, (m68Free_iff v).2 hf])]
  simp only [List.getD_cons_zero]
  rw [H.bind_run (show m68Cond (t.drop 1) c = (.ok (k : Int), []) by rw [m68Cond_eq, hc]), H.bind_run (show H.read c = (.ok c, []) from rfl),
    if_neg (by omega), if_pos hd]
  refine lift_bind (some_slot ha) ?_
  rw [H.bind_run (build_bccW hk c), pack16_any, words_bytes]
  simp only [M68Shape.seg1, ← bytesOf_one a]
  simp [M68Shape.seg2, bytesOf, M68Shape.head]
  rfl

set_option linter.unusedVariables false in
theorem line_dbcc {k n : Nat} {r v : Str} {a b : Int} {ra rb : List Reloc} (hk : k < 16) (hname : M68Name t ("DB" ++ condName k) .word ∨ (k = 1 ∧ M68Name t "DBRA" .word)) (hr : M68Reg 'd' n r) (hf : M68Free v)
    (hv : (M68Shape.dbcc k n v).Valid) (hn : ¬ (M68Shape.dbcc k n v).NoName t) (ha : SlotRead ((M68Shape.dbcc k n v).slot1 c.pc) c a ra) (hb : SlotRead ((M68Shape.dbcc k n v).slot2 c.pc) c b rb) :
    Emits mc68000 c t [r, v] (bytesOf ((M68Shape.dbcc k n v).words a b)) (ra ++ rb) := by
  cases no_slot hb
  rw [List.append_nil]
  simp only [M68Shape.NoName, not_or] at hn
  obtain ⟨hc, m, hmem, hnn⟩ := named_dbcc hk hname hn
  refine m68_emits_of hmem hnn ?_
  simp only [m68Run]
  rw [if_pos (by rw [instrMatch_cons]; simp [matchAll, matches_pred, (m68Free_iff v).2 hf, (matches_m68D r).2 ⟨n, hr⟩])]
  simp only [List.getD_cons_zero, List.getD_cons_succ]
  rw [H.bind_run (show m68Cond (t.drop 2) c = (.ok (k : Int), []) by rw [m68Cond_eq, hc])]
  rw [H.bind_run (m68Reg_of hr c), H.bind_run (show H.read c = (.ok c, []) from rfl)]
  refine lift_bind (some_slot ha) ?_
  rw [H.bind_run (build_dbcc hk hr.1 c), pack16_any, words_bytes]
  simp only [M68Shape.seg1, ← bytesOf_one a]
  simp [M68Shape.seg2, bytesOf, M68Shape.head]
  rfl

/-- A line of the given shape is accepted and gives the words of the shape. -/
theorem line_of {sh : M68Shape} {ts : List Str} {a b : Int} {ra rb : List Reloc} (ht : sh.Text t ts) (hv : sh.Valid) (hn : ¬ sh.NoName t)
    (ha : SlotRead (sh.slot1 c.pc) c a ra) (hb : SlotRead (sh.slot2 c.pc) c b rb) (sa : SlotSafe (sh.slot1 c.pc)) (sb : SlotSafe (sh.slot2 c.pc)) :
    Emits mc68000 c t ts (bytesOf (sh.words a b)) (ra ++ rb) := by
  cases ht with
  | @move sz f g A B hname hf hg =>
    obtain ⟨hd, n, hmem, hnn⟩ := named_move hname
    obtain ⟨v1, v2, v3⟩ := hv
    refine m68_emits_of hmem hnn ?_
    simp only [m68Run, List.getD_cons_zero]
    rw [hd]
    rw [H.bind_of (mode_run (start := 1) (used := A) (extra := B) (sz := sz) rfl (by simp) hf (text_head hg sb).1 (fun _ => rfl) sa ha)]
    simp only
    have hne : instrMatch (t :: (A ++ B)) [.coll m68A] (1 + A.length) = false := by
      rw [Bool.eq_false_iff]
      intro hm
      obtain ⟨r, hr, hr'⟩ := match_last rfl hm
      rw [alterable_not_reg hg v3 r hr] at hr'
      cases hr'
    rw [if_neg (by rw [hne]; simp)]
    have hlen : (bytesOf (f.ext sz a)).length = 2 * (f.ext sz 0).length := by rw [bytesOf_length, ext_length f sz a 0]
    have hdrop : (t :: (A ++ B)).drop (1 + A.length) = B ++ [] := by
      rw [Nat.add_comm, List.drop_succ_cons]; simp
    have := mode_run (black := m68Alterable) (c := c) (size := m68Bytes sz) (sz := sz) hdrop v3 hg (by simp) (fun _ => rfl) (off := (bytesOf (f.ext sz a)).length)
      (v := b) (rels := rb) (by rw [hlen]; exact sb) (by rw [hlen]; exact hb)
    refine lift_bind this ?_
    simp only
    refine lift_bind (build_move (moveCode_lt sz) (EaForm.regNo_lt v2).1 (EaForm.regNo_lt v2).2 (EaForm.regNo_lt v1).2 (EaForm.regNo_lt v1).1 c) ?_
    rw [words_bytes]
    rfl
  | @movea sz f n A r hname hf hr =>
    obtain ⟨v1, v2, v3⟩ := hv
    cases no_slot hb
    rw [List.append_nil]
    rcases hname with hname | hname
    · obtain ⟨hd, m, hmem, hnn⟩ := named_move hname
      refine m68_emits_of hmem hnn ?_
      simp only [m68Run, List.getD_cons_zero]
      rw [hd]
      refine lift_bind (mode_run (start := 1) (used := A) (extra := [r]) (sz := sz) rfl (by simp) hf ?_ (fun _ => rfl) sa ha) ?_
      · obtain ⟨x, rfl, -⟩ := hr.shape; simp
      · simp only
        rw [if_pos ⟨by cases sz <;> simp [m68Bytes] at v3 ⊢, match_last_of ((matches_m68A r).2 ⟨n, hr⟩) _ rfl⟩]
        exact toAddress_of v1 hr
    · obtain ⟨hd, m, hmem, hnn⟩ := named_movea v3 hname
      refine m68_emits_of hmem hnn ?_
      simp only [m68Run, List.getD_cons_zero]
      rw [hd]
      refine lift_bind (mode_run (start := 1) (used := A) (extra := [r]) (sz := sz) rfl (by simp) hf ?_ (fun _ => rfl) sa ha) ?_
      · obtain ⟨x, rfl, -⟩ := hr.shape; simp
      · simp only
        rw [if_pos (match_last_of ((matches_m68A r).2 ⟨n, hr⟩) _ rfl)]
        exact toAddress_of v1 hr
  | @imm op sz v g B hname hv0 hg =>
    obtain ⟨hd, n, hmem, hnn⟩ := named_imm hname
    obtain ⟨v1, v2⟩ := hv
    refine m68_emits_of hmem hnn ?_
    simp only [m68Run, List.getD_cons_zero]
    have hst : ∀ s, s = "CCR" ∨ s = "SR" → instrMatch (t :: ('#' :: v) :: B) [.pred m68IsImm, .str s.toList] = false := by
      intro s hs
      rw [Bool.eq_false_iff]
      intro hm
      obtain ⟨x, y, h1, h2, h3⟩ := instr2 hm
      have : B = [y] := by simp at h1; exact h1.2
      rw [text_not_status hg v2 sb s hs y this] at h3
      cases h3
    rw [if_neg (by rw [hst _ (.inl rfl)]; simp), if_neg (by rw [hst _ (.inr rfl)]; simp), unbound_eq,
      if_pos (show matchPrefix ((t :: ('#' :: v) :: B).drop 1) [.pred m68IsImm] = true by
        simp [matchPrefix, matches_pred, (m68IsImm_iff ('#' :: v)).2 ⟨v, hv0, rfl⟩])]
    simp only [List.getD_cons_succ, List.getD_cons_zero, List.drop_succ_cons, List.drop_zero, List.length_nil]
    rw [hd]
    simp only
    rw [H.bind_of (m68Packer_of (sz := sz) (pc := c.pc) (t := v) (off := 0) rfl (some_slot ha))]
    refine lift_bind (mode_run (start := 1 + (0 + 1)) (used := B) (extra := []) (sz := sz) (by simp) v2 hg (by simp) (fun _ => rfl) sb hb) ?_
    simp only
    refine lift_bind (build_imm (immCode_lt sz) (EaForm.regNo_lt v1).2 (EaForm.regNo_lt v1).1 c) ?_
    rw [words_bytes]
    rfl
  | ccr h0 h1 h2 => exact line_ccr h0 h1 h2 hv hn ha hb sa
  | sr h0 h1 h2 => exact line_sr h0 h1 h2 hv hn ha hb sa
  | lea h0 h1 h2 => exact line_lea h0 h1 h2 hv hn ha hb sa
  | jump h0 h1 => exact line_jump h0 h1 hv hn ha hb sa
  | bccB h0 h1 h2 => exact line_bccB h0 h1 h2 hv hn ha hb
  | bccW h0 h1 h2 => exact line_bccW h0 h1 h2 hv hn ha hb
  | dbcc h0 h1 h2 h3 => exact line_dbcc h0 h1 h2 h3 hv hn ha hb
  | rts h =>
    cases no_slot hb
    have : ra = [] := by
      rcases ha with ⟨-, h⟩ | ⟨p, h, -⟩
      · exact h
      · cases h
    subst this
    have e : bytesOf (M68Shape.rts.words a b) = [0x4E#8, 0x75#8] := by
      show bytesOf [0x4E75] = _
      decide
    rw [e]
    refine .fixed ?_ rfl
    rw [show mc68000.key t = "RTS".toList from h]
    rfl
  | nop h =>
    cases no_slot hb
    have : ra = [] := by
      rcases ha with ⟨-, h⟩ | ⟨p, h, -⟩
      · exact h
      · cases h
    subst this
    have e : bytesOf (M68Shape.nop.words a b) = [0x4E#8, 0x71#8] := by
      show bytesOf [0x4E71] = _
      decide
    rw [e]
    refine .fixed ?_ rfl
    rw [show mc68000.key t = "NOP".toList from h]
    rfl

end Necro
