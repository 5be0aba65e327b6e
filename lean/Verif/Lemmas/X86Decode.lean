import Verif.Lemmas.X86Rows
/-!
# Reading x86 code, and the rows of the instructions
-/

namespace Necro
open Spec

/-! ## the opcode map -/

theorem x86Map_bound {op : Nat} {s : List String × List X86Kind} (h : x86Map op = some s) : op < 256 ∨ (0xF00 ≤ op ∧ op < 0x1000) := by
  unfold x86Map at h
  split at h
  · omega
  repeat (split at h; · omega)
  have hm : (op, s) ∈ x86Single := by
    have : ∀ (l : List (Nat × List String × List X86Kind)), l.lookup op = some s → (op, s) ∈ l := by
      intro l
      induction l with
      | nil => intro h; cases h
      | cons q l ih =>
        intro h
        rw [List.lookup_cons] at h
        split at h
        · next e => cases h; simp only [beq_iff_eq] at e; subst e; simp
        · exact List.mem_cons_of_mem _ (ih h)
    exact this _ h
  have : ∀ q ∈ x86Single, q.1 < 256 ∨ (0xF00 ≤ q.1 ∧ q.1 < 0x1000) := by decide
  exact this _ hm

/-- The opcodes of the map. -/
def x86Ops : List Nat := List.range 256 ++ (List.range 256).map (0xF00 + ·)

theorem x86Map_mem {op : Nat} {s : List String × List X86Kind} (h : x86Map op = some s) : op ∈ x86Ops := by
  unfold x86Ops
  rw [List.mem_append, List.mem_range, List.mem_map]
  rcases x86Map_bound h with h | h
  · exact .inl h
  · exact .inr ⟨op - 0xF00, by rw [List.mem_range]; omega, by omega⟩

theorem x86Main_some {mode size op : Nat} {s : List String × List X86Kind} : x86Main mode size op = some s ↔ x86Map op = some s ∧ x86Legal mode size s.2 = true := by
  unfold x86Main
  rw [Option.filter_eq_some_iff]

theorem x86Plain_none : ∀ op ∈ x86Ops, (x86Map op).isSome = true → ∀ mode ∈ [16, 32, 64], ∀ size ∈ [16, 32], (x86Plain mode size op).isNone = true := by
  decide +kernel

/-- Opcodes are not the prefixes. -/
theorem x86Map_prefix : x86Map 0x66 = none ∧ x86Map 0x0F = none := by decide +kernel

/-! ## rows -/

def x86PickIs (rows : List (Nat × List X86Arg)) (k : X86Tok) (k' : Option X86Tok) (p : Nat → List X86Arg → Bool) : Bool :=
  match x86Pick rows k k' with
  | some q => p q.1 q.2
  | none => false

/-- The rows have, for all operands of these kinds, one that emits the opcode or another one of the same instruction. -/
def x86Serves (op : Nat) (names : List String) (rows : List (Nat × List X86Arg)) (size : Nat) : List X86Kind → Bool
  | [.ev, .gv] =>
    (x86PickIs rows (.r size) (some (.r size)) fun b a => (a == [.evqp, .gvqp] && x86Map b == some (names, [.ev, .gv])) ||
      (a == [.gvqp, .evqp] && x86Map b == some (names, [.gv, .ev]))) &&
    x86PickIs rows .op (some (.r size)) fun b a => a == [.evqp, .gvqp] && x86Map b == some (names, [.ev, .gv])
  | [.gv, .ev] =>
    (x86PickIs rows (.r size) (some (.r size)) fun b a => (a == [.evqp, .gvqp] && x86Map b == some (names, [.ev, .gv])) ||
      (a == [.gvqp, .evqp] && x86Map b == some (names, [.gv, .ev]))) &&
    x86PickIs rows (.r size) (some .op) fun b a => a == [.gvqp, .evqp] && x86Map b == some (names, [.gv, .ev])
  | [.gv, .m] => x86PickIs rows (.r size) (some .op) fun b a => a == [.gvqp, .m] && b == op
  | [.zv n, .iv] => x86PickIs rows (.r size) (some .num) fun b a => (a == [.rax, .ivds] && n == 0 && b == op) || (a == [.zvqp, .ivqp] && x86ApplyZ (x86Split b) n == x86Split op)
  | [.zv n] => x86PickIs rows (.r size) none fun b a => a == [.zvqp] && x86ApplyZ (x86Split b) n == x86Split op
  | [.zs n] => (x86PickIs rows (.r 16) none fun b a => a == [.zvq] && x86ApplyZ (x86Split b) n == x86Split op) &&
    x86PickIs rows (.r 64) none fun b a => a == [.zvq] && x86ApplyZ (x86Split b) n == x86Split op
  | [.jz] => x86PickIs rows .num none fun b a => a == [.jvds] && b == op
  | [.rd, .cd] => x86PickIs rows (.r 32) (some .c) fun b a => a == [.rd, .cd] && b == op
  | [.cd, .rd] => x86PickIs rows .c (some (.r 32)) fun b a => a == [.cd, .rd] && b == op
  | _ => false

/-- The check of one opcode. -/
def x86Check (op : Nat) : Bool :=
  match x86Map op with
  | none => true
  | some (names, kinds) => names.all fun n => x86Lost.contains n ||
      match x86Rows.find? fun p => p.1 == n with
      | none => false
      | some p => x86Serves op names p.2.2 16 kinds && x86Serves op names p.2.2 32 kinds

theorem x86Check_all : x86Ops.all x86Check = true := by decide +kernel

/-! ## decoding -/

theorem x86Split_opcode {op : Nat} {s : List String × List X86Kind} (h : x86Map op = some s) (mode size : Nat) (tail : Bytes) :
    x86Opcode mode size ((x86Split op).map (fun n => BitVec.ofNat 8 n) ++ tail) = x86Body mode size op tail := by
  rcases x86Map_bound h with hb | ⟨hb, hb'⟩
  · have hne : op ≠ 0x0F := by rintro rfl; rw [x86Map_prefix.2] at h; cases h
    have e : (BitVec.ofNat 8 op).toNat = op := by rw [BitVec.toNat_ofNat]; omega
    unfold x86Split
    rw [if_neg (by omega)]
    simp only [List.map_cons, List.map_nil, List.cons_append, List.nil_append, x86Opcode]
    rw [if_neg (by
      intro e'
      rw [e'] at e
      exact hne e.symm), e]
  · unfold x86Split
    rw [if_pos (by omega)]
    have e0 : op / 256 = 15 := by omega
    have e : (BitVec.ofNat 8 (op % 256)).toNat = op - 0xF00 := by rw [BitVec.toNat_ofNat]; omega
    simp only [List.map_cons, List.map_nil, List.cons_append, List.nil_append, x86Opcode, e0]
    rw [if_pos (by decide), e, show 0xF00 + (op - 0xF00) = op by omega]

theorem x86Split_first {op : Nat} {s : List String × List X86Kind} (h : x86Map op = some s) : ∃ b l, (x86Split op).map (fun n => BitVec.ofNat 8 n) = b :: l ∧ b ≠ 0x66 := by
  unfold x86Split
  rcases x86Map_bound h with hb | ⟨hb, hb'⟩
  · have hne : op ≠ 0x66 := by rintro rfl; rw [x86Map_prefix.1] at h; cases h
    rw [if_neg (by omega)]
    refine ⟨_, _, rfl, ?_⟩
    intro e
    have := congrArg BitVec.toNat e
    rw [BitVec.toNat_ofNat, Nat.mod_eq_of_lt hb] at this
    exact hne this
  · rw [if_pos (by omega)]
    refine ⟨_, _, rfl, ?_⟩
    rw [show op / 256 = 15 by omega]
    decide

theorem decode_pre {mode size op : Nat} {s : List String × List X86Kind} (hm : mode = 16 ∨ mode = 32 ∨ mode = 64) (hs : size = 16 ∨ size = 32) (h : x86Map op = some s)
    (tail : Bytes) : decodeX86 mode ((x86Pre mode size (x86Split op)).map (fun n => BitVec.ofNat 8 n) ++ tail) = x86Body mode size op tail := by
  obtain ⟨b, l, e, hb⟩ := x86Split_first h
  have h0 := x86Split_opcode h mode size tail
  unfold x86Pre
  split
  · next hp =>
    simp only [List.map_cons, List.cons_append, decodeX86]
    rw [if_pos (by decide)]
    have : 48 - x86Default mode = size := by
      rcases hm with rfl | rfl | rfl <;> rcases hs with rfl | rfl <;> simp_all [x86Default]
    rw [this]
    exact h0
  · next hp =>
    rw [e] at h0 ⊢
    simp only [List.cons_append, decodeX86]
    rw [if_neg hb]
    have : x86Default mode = size := by
      rcases hm with rfl | rfl | rfl <;> rcases hs with rfl | rfl <;> simp_all [x86Default]
    rw [this]
    exact h0

theorem main_shape {mode size op : Nat} {s : List String × List X86Kind} (hm : mode = 16 ∨ mode = 32 ∨ mode = 64) (hs : size = 16 ∨ size = 32)
    (h : x86Main mode size op = some s) (g : Nat) : x86Shape mode size op g = some s := by
  obtain ⟨h1, -⟩ := x86Main_some.1 h
  have := x86Plain_none op (x86Map_mem h1) (by rw [h1]; rfl) mode (by rcases hm with rfl | rfl | rfl <;> decide) size (by rcases hs with rfl | rfl <;> decide)
  unfold x86Shape
  cases hp : x86Plain mode size op with
  | some _ => rw [hp] at this; cases this
  | none => simp only [h]

theorem disasm_modrm {mode size op : Nat} {names : List String} {kinds : List X86Kind} {tail bs : Bytes} {g : Nat} {rm : X86Rm} {os : List X86Opnd}
    (hm : mode = 16 ∨ mode = 32 ∨ mode = 64) (hs : size = 16 ∨ size = 32) (h : x86Main mode size op = some (names, kinds)) (hk : kinds.any X86Kind.modrm = true)
    (h1 : x86Modrm mode tail = some (g, rm, bs)) (h2 : x86Operands mode size (some (g, rm)) kinds bs = some (os, [])) :
    disasmX86 mode ((x86Pre mode size (x86Split op)).map (fun n => BitVec.ofNat 8 n) ++ tail) = some ⟨names, os⟩ := by
  unfold disasmX86
  rw [decode_pre hm hs (x86Main_some.1 h).1]
  unfold x86Body
  simp only [main_shape hm hs h, Option.bind_eq_bind, Option.bind_some, hk, if_true, h1, h2, Option.pure_def]

theorem disasm_bare {mode size op : Nat} {names : List String} {kinds : List X86Kind} {tail : Bytes} {os : List X86Opnd}
    (hm : mode = 16 ∨ mode = 32 ∨ mode = 64) (hs : size = 16 ∨ size = 32) (h : x86Main mode size op = some (names, kinds)) (hk : kinds.any X86Kind.modrm = false)
    (h2 : x86Operands mode size none kinds tail = some (os, [])) :
    disasmX86 mode ((x86Pre mode size (x86Split op)).map (fun n => BitVec.ofNat 8 n) ++ tail) = some ⟨names, os⟩ := by
  unfold disasmX86
  rw [decode_pre hm hs (x86Main_some.1 h).1]
  unfold x86Body
  simp only [main_shape hm hs h, Option.bind_eq_bind, Option.bind_some, hk, Bool.false_eq_true, if_false, h2, Option.pure_def]

theorem modrm_reg (mode : Nat) {reg rm : Nat} (h1 : reg < 8) (h2 : rm < 8) : x86Modrm mode [modByte 3 reg rm] = some (reg, .reg rm, []) := by
  obtain ⟨p1, p2, p3⟩ := modByte_parts (mod := 3) (by decide) h1 h2
  unfold x86Modrm
  split
  · simp only [modrm86, p1, p2, p3, Option.map_some]
  · simp only [p1, p2, p3, if_true]

/-- The bytes after the ModR/M byte give that memory operand, in 16-bit mode. -/
def X86Denotes (o : X86Opnd) (mod rm : Nat) (tail : Bytes) : Prop := ∀ reg < 8, x86Modrm 16 (modByte mod reg rm :: tail) = some (reg, .mem o, [])

theorem denotes_plain {b : Nat} (h : b < 8) (hb : b ≠ 6) : X86Denotes (.mem b 0) 0 b [] := by
  intro reg hr
  obtain ⟨p1, p2, p3⟩ := modByte_parts (mod := 0) (by decide) hr h
  unfold x86Modrm
  rw [if_pos rfl]
  simp only [modrm86, p1, p2, p3]
  rw [if_neg hb]
  rfl

theorem denotes_disp {b d : Nat} {x y : Int} (h : b < 8) (h1 : y % 2 ^ 16 = x % 2 ^ 16) (h2 : (d : Int) = x % 2 ^ 16) : X86Denotes (.mem b d) 2 b (leBytes 2 y) := by
  intro reg hr
  obtain ⟨p1, p2, p3⟩ := modByte_parts (mod := 2) (by decide) hr h
  obtain ⟨u, v, e1, e2⟩ := word_le y []
  rw [List.append_nil] at e1
  unfold x86Modrm
  rw [if_pos rfl, e1]
  simp only [modrm86, p1, p2, p3, Option.map_some]
  have : word86 u v = d := by
    have h1 : y % 65536 = x % 65536 := h1
    have h2 : (d : Int) = x % 65536 := h2
    omega
  rw [this]

theorem imm_decode (mode : Nat) {size : Nat} {mr : Option (Nat × X86Rm)} {b : Bytes} {n : Nat} {x : Int} (hs : size = 16 ∨ size = 32) (hl : b.length = size / 8)
    (hv : (ofLE b : Int) = x % 2 ^ size) (hn : (n : Int) = x % 2 ^ size) : x86Operand mode size mr .iv b = some (.imm n, []) := by
  have hn : ofLE b = n := by omega
  rcases hs with rfl | rfl
  · match b, hl with
    | [p, q], _ =>
      simp only [x86Operand, if_true, Option.some.injEq, Prod.mk.injEq, and_true, X86Opnd.imm.injEq]
      rw [← hn]
      simp [ofLE, word86]
  · match b, hl with
    | [p, q, r, s], _ =>
      simp only [x86Operand, show ¬ (32 = 16) by decide, if_false, Option.some.injEq, Prod.mk.injEq, and_true, X86Opnd.imm.injEq]
      rw [← hn]
      simp [ofLE, dword86]

theorem rel_decode (mode : Nat) {size : Nat} {mr : Option (Nat × X86Rm)} {b : Bytes} {d x : Int} (hs : size = 16 ∨ size = 32) (hl : b.length = size / 8)
    (hv : (ofLE b : Int) = x % 2 ^ size) (h1 : -(2 ^ (size - 1)) ≤ d) (h2 : d < 2 ^ (size - 1)) (hn : d % 2 ^ size = x % 2 ^ size) :
    x86Operand mode size mr .jz b = some (.rel d, []) := by
  rcases hs with rfl | rfl
  · match b, hl with
    | [p, q], _ =>
      simp only [x86Operand, if_true, Option.some.injEq, Prod.mk.injEq, and_true, X86Opnd.rel.injEq]
      have e : ofLE [p, q] = word86 p q := by simp [ofLE, word86]
      rw [e] at hv
      unfold toSigned
      simp only [show 16 - 1 = 15 by decide] at *
      split <;> omega
  · match b, hl with
    | [p, q, r, s], _ =>
      simp only [x86Operand, show ¬ (32 = 16) by decide, if_false, Option.some.injEq, Prod.mk.injEq, and_true, X86Opnd.rel.injEq]
      have e : ofLE [p, q, r, s] = dword86 p q r s := by simp [ofLE, dword86]
      rw [e] at hv
      unfold toSigned
      simp only [show 32 - 1 = 31 by decide] at *
      split <;> omega

/-! ## names -/

theorem x86_reg {bits n : Nat} {t : Str} (hb : bits = 16 ∨ bits = 32 ∨ bits = 64) (h : I86Name (x86Names bits) n t) : X86Reg bits n t := by
  have hlt : n < 8 := by
    obtain ⟨s, hs, -⟩ := h
    have hl : (x86Names bits).length = 8 := by rcases hb with rfl | rfl | rfl <;> decide
    have := (List.getElem?_eq_some_iff.1 hs).1
    omega
  refine ⟨hlt, ?_⟩
  have hu : ∀ bits ∈ [16, 32, 64], (∀ s ∈ x86Names bits, upper s.toList = s.toList) ∧ ((x86Names bits).map String.toList).Nodup := by decide +kernel
  have := hu bits (by rcases hb with rfl | rfl | rfl <;> decide)
  have := mem_of_name this.1 this.2 h
  rcases hb with rfl | rfl | rfl
  · rw [x86Regs_eq.1] at this
    exact .inl ⟨rfl, this⟩
  · rw [x86Regs_eq.2.1] at this
    exact .inr (.inl ⟨rfl, this⟩)
  · rw [x86Regs_eq.2.2.1] at this
    exact .inr (.inr ⟨rfl, this⟩)

theorem x86_creg {n : Nat} {t : Str} (h : I86Name x86NamesC n t) : X86Creg n t := by
  refine ⟨?_, ?_⟩
  · obtain ⟨s, hs, -⟩ := h
    exact (List.getElem?_eq_some_iff.1 hs).1
  · have hu : (∀ s ∈ x86NamesC, upper s.toList = s.toList) ∧ (x86NamesC.map String.toList).Nodup := by decide +kernel
    have := mem_of_name hu.1 hu.2 h
    rw [x86Regs_eq.2.2.2] at this
    exact this

theorem x86Rows_upper : ∀ p ∈ x86Rows ++ x86PlainRows, upper p.1.toList = p.1.toList := by decide +kernel

theorem x86_instr {t : Str} {p : String × Nat × List (Nat × List X86Arg)} (hp : p ∈ x86Rows ++ x86PlainRows) (ht : eqNoCase t p.1.toList) (hne : p.2.2 ≠ []) :
    x86.instrs (x86.key t) = some (.handler fun tokens => x86Call (x86Next (tokens.drop 1)) tokens p.2.2) := by
  have hk : x86.key t = p.1.toList := by
    show upper t = _
    have ht : upper t = upper p.1.toList := ht
    rw [ht, x86Rows_upper p hp]
  rw [hk]
  have := x86Conds_row hp
  simp only [x86, this]

theorem x86_emits {t : Str} {rest : List Str} {p : String × Nat × List (Nat × List X86Arg)} {c : Ctx} {k : X86Tok} {k' : Option X86Tok} {b : Nat} {args : List X86Arg}
    {base : List Nat} {full : Bytes} (hp : p ∈ x86Rows) (ht : eqNoCase t p.1.toList) (hpick : x86Pick p.2.2 k k' = some (b, args)) (ho : X86Ops k k' rest)
    (hr : x86Args (t :: rest) args (x86Split b) 1 {} [] c = (.ok (some (base, full)), [])) :
    Emits x86 c t rest (base.map (fun n => BitVec.ofNat 8 n) ++ full) [] := by
  refine .handler (x86_instr (List.mem_append_left _ hp) ht ?_) (pick_run hpick ho hr)
  intro e
  rw [e] at hpick
  cases hpick

end Necro
