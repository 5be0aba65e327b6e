import Verif.Lemmas.X86Decode
import Verif.Lemmas.Line
import Verif.Props.Invariants
import Verif.Lemmas.Lookup

/-! C78: the code of the x86 assembler. -/

namespace Necro

open Spec

theorem pickIs_some {rows : List (Nat × List X86Arg)} {k : X86Tok} {k' : Option X86Tok} {p : Nat → List X86Arg → Bool} (h : x86PickIs rows k k' p = true) :
    ∃ b a, x86Pick rows k k' = some (b, a) ∧ p b a = true := by
  unfold x86PickIs at h
  split at h
  · next q e => exact ⟨q.1, q.2, e, h⟩
  · cases h

theorem x86Regs_no_minus : ∀ t ∈ (x86AllRegs ++ [['['], [']']]).flatMap variants,
    (internalParseInteger i8086.sy (getMathFormula ('-' :: t)).body).toOption = some none := by decide +kernel

theorem x86_minus {c : Ctx} (hsy : c.sy = i8086.sy) {use : M68Use} {n : Nat} {v : Str} {x : Int} (h : m68Number c use n ('-' :: v) x) :
    upper v ∉ x86AllRegs ++ [['['], [']']] := by
  intro hb
  have hn := x86Regs_no_minus v (List.mem_flatMap.2 ⟨_, hb, mem_variants (x86Regs_plain _ hb) rfl⟩)
  obtain ⟨dec, ⟨lit, h1, -⟩, -⟩ := h
  rw [hsy] at h1
  rw [h1] at hn
  simp [Except.toOption] at hn

/-- A memory operand of the text. -/
inductive X86MemText (c : Ctx) (size : Nat) : X86Opnd → List Str → Prop
  | mk {o ts mod rm tail} : X86Adr c size ts mod rm tail → X86Denotes o mod rm tail → X86MemText c size o (['['] :: ts ++ [[']']])

theorem X86MemText.op {c : Ctx} {size : Nat} {o : X86Opnd} {ts : List Str} (h : X86MemText c size o ts) : X86Op .op ts := by
  obtain ⟨h, -⟩ := h
  obtain ⟨d, hg, -⟩ := h.run
  exact .mem h.close hg

theorem takes_mem {c : Ctx} (hsy : c.sy = i8086.sy) {mode size : Nat} {k : X86Kind} {o : X86Opnd} {ts : List Str} (hk : k ∈ [.ev, .m])
    (h : X86Takes (m68Number c) mode size k o ts) : (mode = 16 ∧ X86MemText c size o ts) ∨ (k = .ev ∧ ∃ n t, I86Name (x86Names size) n t ∧ o = .reg size n ∧ ts = [t]) := by
  cases h with
  | @reg _ n t h1 h2 =>
    refine .inr ⟨?_, n, t, h2, rfl, rfl⟩
    simp only [List.mem_cons, List.not_mem_nil, or_false] at hk
    rcases hk with rfl | rfl
    · rfl
    · simp at h1
  | mem h1 _ h2 h3 => exact .inl ⟨h1, adr_plain h2, denotes_plain (base_lt h2) h3⟩
  | @plus _ b d us v x h1 h2 _ h3 h4 h5 =>
    subst h2
    have hv : upper v ∉ x86AllRegs ++ [['['], [']']] := by
      intro hm
      have : v.dropWhile (· == '+') = v := by
        cases v with
        | nil => rfl
        | cons a v =>
          rw [List.dropWhile_cons_of_neg]
          intro e
          simp only [beq_iff_eq] at e
          subst e
          revert hm
          have : ∀ r ∈ x86AllRegs ++ [['['], [']']], r.head? ≠ some '+' := by decide +kernel
          intro hm
          exact this _ hm rfl
      rw [this] at h4
      exact x86_number hsy h4 hm
    obtain ⟨y, hy, ha⟩ := adr_disp h3 (.inl rfl) hv (s := ['+']) (by simpa using h4)
    have := X86MemText.mk ha (denotes_disp (base_lt h3) hy h5)
    exact .inl ⟨h1, by simpa using this⟩
  | @minus _ b d us v x h1 h2 _ h3 h4 h5 =>
    subst h2
    have hv := x86_minus hsy h4
    obtain ⟨y, hy, ha⟩ := adr_disp h3 (.inr rfl) hv (s := ['-']) (by simpa using h4)
    have := X86MemText.mk ha (denotes_disp (base_lt h3) hy h5)
    exact .inl ⟨h1, by simpa using this⟩
  | _ => simp at hk

section
variable {value : M68Use → Nat → Str → Int → Prop} {mode size : Nat} {o : X86Opnd} {ts : List Str}

theorem takes_gv (h : X86Takes value mode size .gv o ts) : ∃ n t, I86Name (x86Names size) n t ∧ o = .reg size n ∧ ts = [t] := by
  cases h with
  | mem _ hk => simp at hk
  | plus _ _ hk => simp at hk
  | minus _ _ hk => simp at hk
  | reg _ h => exact ⟨_, _, h, rfl, rfl⟩

theorem takes_zv {m : Nat} (h : X86Takes value mode size (.zv m) o ts) : ∃ t, I86Name (x86Names size) m t ∧ o = .reg size m ∧ ts = [t] := by
  cases h with
  | mem _ hk => simp at hk
  | plus _ _ hk => simp at hk
  | minus _ _ hk => simp at hk
  | @reg _ n t hk h =>
    simp only [List.mem_cons, reduceCtorEq, X86Kind.zv.injEq, List.not_mem_nil, or_false, false_or] at hk
    subst hk
    exact ⟨_, h, rfl, rfl⟩

theorem takes_iv (h : X86Takes value mode size .iv o ts) : ∃ (n : Nat) (v : Str) (x : Int), value .data size v x ∧ (n : Int) = x % 2 ^ size ∧ o = .imm n ∧ ts = [v] := by
  cases h with
  | reg hk => simp at hk
  | mem _ hk => simp at hk
  | plus _ _ hk => simp at hk
  | minus _ _ hk => simp at hk
  | imm h1 h2 => exact ⟨_, _, _, h1, h2, rfl, rfl⟩

theorem takes_zs {m : Nat} (h : X86Takes value mode size (.zs m) o ts) : ∃ t, I86Name (x86Names (x86Stack mode size)) m t ∧ o = .reg (x86Stack mode size) m ∧ ts = [t] := by
  cases h with
  | reg hk => simp at hk
  | mem _ hk => simp at hk
  | plus _ _ hk => simp at hk
  | minus _ _ hk => simp at hk
  | stack h => exact ⟨_, h, rfl, rfl⟩

theorem takes_rd (h : X86Takes value mode size .rd o ts) : ∃ n t, I86Name (x86Names 32) n t ∧ o = .reg 32 n ∧ ts = [t] := by
  cases h with
  | reg hk => simp at hk
  | mem _ hk => simp at hk
  | plus _ _ hk => simp at hk
  | minus _ _ hk => simp at hk
  | rd h => exact ⟨_, _, h, rfl, rfl⟩

theorem takes_cd (h : X86Takes value mode size .cd o ts) : ∃ n t, I86Name x86NamesC n t ∧ o = .creg n ∧ ts = [t] := by
  cases h with
  | reg hk => simp at hk
  | mem _ hk => simp at hk
  | plus _ _ hk => simp at hk
  | minus _ _ hk => simp at hk
  | cd h => exact ⟨_, _, h, rfl, rfl⟩

theorem takes_jz (h : X86Takes value mode size .jz o ts) : ∃ (d : Int) (v : Str) (x : Int), value .pc 16 v x ∧ -(2 ^ (size - 1)) ≤ d ∧ d < 2 ^ (size - 1) ∧
    d % 2 ^ size = x % 2 ^ size ∧ o = .rel d ∧ ts = [v] := by
  cases h with
  | reg hk => simp at hk
  | mem _ hk => simp at hk
  | plus _ _ hk => simp at hk
  | minus _ _ hk => simp at hk
  | rel h1 h2 h3 h4 => exact ⟨_, _, _, h1, h2, h3, h4, rfl, rfl⟩

end

theorem pre_default {mode size : Nat} (base : List Nat) (hm : mode = 16 ∨ mode = 32 ∨ mode = 64) (h : size = x86Default mode) : x86Pre mode size base = base := by
  subst h
  unfold x86Pre
  rw [if_neg]
  rcases hm with rfl | rfl | rfl <;> decide

theorem x86Check_rows {op : Nat} {names : List String} {kinds : List X86Kind} {name : String} (h : x86Map op = some (names, kinds)) (hn : name ∈ names) (hl : name ∉ x86Lost)
    {size : Nat} (hs : size = 16 ∨ size = 32) : ∃ p ∈ x86Rows, p.1 = name ∧ x86Serves op names p.2.2 size kinds = true := by
  have hc := List.all_eq_true.1 x86Check_all op (x86Map_mem h)
  unfold x86Check at hc
  rw [h] at hc
  simp only at hc
  have hc := List.all_eq_true.1 hc name hn
  rw [Bool.or_eq_true] at hc
  rcases hc with hc | hc
  · exact absurd (List.contains_iff_mem.1 hc) hl
  · split at hc
    · cases hc
    · next p hp =>
      rw [Bool.and_eq_true] at hc
      refine ⟨p, List.mem_of_find?_eq_some hp, ?_, ?_⟩
      · have := List.find?_some hp
        simpa using this
      · rcases hs with rfl | rfl
        · exact hc.1
        · exact hc.2

theorem main_of {mode size op : Nat} {names : List String} {kinds : List X86Kind} (h : x86Map op = some (names, kinds)) (hl : x86Legal mode size kinds = true) :
    x86Main mode size op = some (names, kinds) := x86Main_some.2 ⟨h, hl⟩

section
variable {c : Ctx} {t : Str} {p : String × Nat × List (Nat × List X86Arg)} {mode size : Nat} {names : List String}

/-- Two registers. -/
theorem code_regs (hmode : x86Mode c = mode) (hm : mode = 16 ∨ mode = 32 ∨ mode = 64) (hs : size = 16 ∨ size = 32) (hp : p ∈ x86Rows) (ht : eqNoCase t p.1.toList)
    {n1 n2 : Nat} {t1 t2 : Str} (h1 : X86Reg size n1 t1) (h2 : X86Reg size n2 t2)
    (h : (x86PickIs p.2.2 (.r size) (some (.r size)) fun b a => (a == [.evqp, .gvqp] && x86Map b == some (names, [.ev, .gv])) ||
      (a == [.gvqp, .evqp] && x86Map b == some (names, [.gv, .ev]))) = true) :
    ∃ blob, Emits x86 c t [t1, t2] blob [] ∧ disasmX86 mode blob = some ⟨names, [.reg size n1, .reg size n2]⟩ := by
  obtain ⟨b, a, hpick, hb⟩ := pickIs_some h
  simp only [Bool.or_eq_true, Bool.and_eq_true, beq_iff_eq] at hb
  have ho : X86Ops (.r size) (some (.r size)) [t1, t2] := .two (.reg h1) (.reg h2)
  rcases hb with ⟨rfl, hb⟩ | ⟨rfl, hb⟩
  · refine ⟨_, x86_emits hp ht hpick ho (row_reg_reg h1 h2).1, ?_⟩
    rw [hmode]
    exact disasm_modrm hm hs (main_of hb rfl) rfl (modrm_reg mode h2.1 h1.1) rfl
  · refine ⟨_, x86_emits hp ht hpick ho (row_reg_reg h1 h2).2, ?_⟩
    rw [hmode]
    exact disasm_modrm hm hs (main_of hb rfl) rfl (modrm_reg mode h1.1 h2.1) rfl

/-- C78: in every mode, for 16- and 32-bit operands, every instruction with operands of the opcode map but those of `x86Lost` is
accepted however the operands are written, and the emitted bytes are one instruction, that one with those operands. -/
theorem C78_code {op : Nat} {kinds : List X86Kind} {name : String} {os : List X86Opnd} {rest : List Str}
    (hsy : c.sy = i8086.sy) (hpc : 0 ≤ c.pc) (hmode : x86Mode c = mode) (hm : mode = 16 ∨ mode = 32 ∨ mode = 64) (hs : size = 16 ∨ size = 32)
    (h : x86Main mode size op = some (names, kinds)) (hn : name ∈ names) (hl : name ∉ x86Lost) (ht : eqNoCase t name.toList)
    (hstack : ∀ n, kinds = [.zs n] → size = 16 ∨ mode = 64) (ha : X86TakesAll (m68Number c) mode size kinds os rest) :
    ∃ blob, Emits x86 c t rest blob [] ∧ disasmX86 mode blob = some ⟨names, os⟩ := by
  obtain ⟨hmap, hlegal⟩ := x86Main_some.1 h
  obtain ⟨p, hp, rfl, hserve⟩ := x86Check_rows hmap hn hl hs
  have hs3 : size = 16 ∨ size = 32 ∨ size = 64 := by rcases hs with rfl | rfl <;> simp
  unfold x86Serves at hserve
  split at hserve
  · -- ev, gv
    rw [Bool.and_eq_true] at hserve
    obtain ⟨hrr, hmr⟩ := hserve
    cases ha with
    | cons h1 ha =>
    cases ha with
    | cons h2 ha =>
    cases ha
    obtain ⟨n2, t2, hn2, rfl, rfl⟩ := takes_gv h2
    have r2 := x86_reg hs3 hn2
    rcases takes_mem hsy (by simp) h1 with ⟨rfl, hmem⟩ | ⟨-, n1, t1, hn1, rfl, rfl⟩
    · obtain ⟨b, a, hpick, hb⟩ := pickIs_some hmr
      simp only [Bool.and_eq_true, beq_iff_eq] at hb
      obtain ⟨rfl, hb⟩ := hb
      have ho := X86Ops.two hmem.op (X86Op.reg r2)
      obtain ⟨hadr, hden⟩ := hmem
      refine ⟨_, x86_emits hp ht hpick ho (row_mem_reg hadr r2), ?_⟩
      rw [hmode]
      exact disasm_modrm hm hs (main_of hb rfl) rfl (hden _ r2.1) rfl
    · exact code_regs hmode hm hs hp ht (x86_reg hs3 hn1) r2 hrr
  · -- gv, ev
    rw [Bool.and_eq_true] at hserve
    obtain ⟨hrr, hmr⟩ := hserve
    cases ha with
    | cons h1 ha =>
    cases ha with
    | cons h2 ha =>
    cases ha
    obtain ⟨n1, t1, hn1, rfl, rfl⟩ := takes_gv h1
    have r1 := x86_reg hs3 hn1
    rw [List.append_nil]
    rcases takes_mem hsy (by simp) h2 with ⟨rfl, hmem⟩ | ⟨-, n2, t2, hn2, rfl, rfl⟩
    · obtain ⟨b, a, hpick, hb⟩ := pickIs_some hmr
      simp only [Bool.and_eq_true, beq_iff_eq] at hb
      obtain ⟨rfl, hb⟩ := hb
      have ho := X86Ops.two (X86Op.reg r1) hmem.op
      obtain ⟨hadr, hden⟩ := hmem
      refine ⟨_, x86_emits hp ht hpick ho (row_reg_mem (.inl rfl) r1 hadr), ?_⟩
      rw [hmode]
      exact disasm_modrm hm hs (main_of hb rfl) rfl (hden _ r1.1) rfl
    · exact code_regs hmode hm hs hp ht r1 (x86_reg hs3 hn2) hrr
  · -- gv, m
    cases ha with
    | cons h1 ha =>
    cases ha with
    | cons h2 ha =>
    cases ha
    obtain ⟨n1, t1, hn1, rfl, rfl⟩ := takes_gv h1
    have r1 := x86_reg hs3 hn1
    rw [List.append_nil]
    rcases takes_mem hsy (by simp) h2 with ⟨rfl, hmem⟩ | ⟨e, -⟩
    · obtain ⟨b, a, hpick, hb⟩ := pickIs_some hserve
      simp only [Bool.and_eq_true, beq_iff_eq] at hb
      obtain ⟨rfl, rfl⟩ := hb
      have ho := X86Ops.two (X86Op.reg r1) hmem.op
      obtain ⟨hadr, hden⟩ := hmem
      refine ⟨_, x86_emits hp ht hpick ho (row_reg_mem (.inr rfl) r1 hadr), ?_⟩
      rw [hmode]
      exact disasm_modrm hm hs h rfl (hden _ r1.1) rfl
    · cases e
  · -- zv n, iv
    next n =>
    cases ha with
    | cons h1 ha =>
    cases ha with
    | cons h2 ha =>
    cases ha
    obtain ⟨t1, hn1, rfl, rfl⟩ := takes_zv h1
    have r1 := x86_reg hs3 hn1
    obtain ⟨v, t2, x, hx, hv, rfl, rfl⟩ := takes_iv h2
    obtain ⟨b, a, hpick, hb⟩ := pickIs_some hserve
    simp only [Bool.or_eq_true, Bool.and_eq_true, beq_iff_eq] at hb
    have ho : X86Ops (.r size) (some .num) [t1, t2] := .two (.reg r1) (.num (x86_number hsy hx))
    rcases hb with ⟨⟨rfl, rfl⟩, rfl⟩ | ⟨rfl, hb⟩
    · obtain ⟨out, e1, e2, e3⟩ := row_rax (t := t) (base := x86Split b) hsy hs r1 hx
      refine ⟨_, x86_emits hp ht hpick ho e3, ?_⟩
      rw [hmode]
      refine disasm_bare hm hs h rfl ?_
      have hi := imm_decode mode (mr := none) hs e1 e2 hv
      simp only [x86Operands, x86Operand] at hi ⊢
      simp only [Option.bind_eq_bind, Option.bind_some]
      rw [hi]
      rfl
    · obtain ⟨out, e1, e2, e3⟩ := row_zv_imm (t := t) (base := x86Split b) hsy hs (by unfold x86Split; split <;> simp) r1 hx
      refine ⟨_, x86_emits hp ht hpick ho e3, ?_⟩
      rw [hmode, hb]
      refine disasm_bare hm hs h rfl ?_
      have hi := imm_decode mode (mr := none) hs e1 e2 hv
      simp only [x86Operands, x86Operand] at hi ⊢
      simp only [Option.bind_eq_bind, Option.bind_some]
      rw [hi]
      rfl
  · -- zv n
    next n =>
    cases ha with
    | cons h1 ha =>
    cases ha
    obtain ⟨t1, hn1, rfl, rfl⟩ := takes_zv h1
    have r1 := x86_reg hs3 hn1
    obtain ⟨b, a, hpick, hb⟩ := pickIs_some hserve
    simp only [Bool.and_eq_true, beq_iff_eq] at hb
    obtain ⟨rfl, hb⟩ := hb
    refine ⟨_, x86_emits hp ht hpick (.one (.reg r1)) (row_zv hs (by unfold x86Split; split <;> simp) r1), ?_⟩
    rw [hmode, hb]
    exact disasm_bare hm hs h rfl rfl
  · -- zs n
    next n =>
    rw [Bool.and_eq_true] at hserve
    cases ha with
    | cons h1 ha =>
    cases ha
    have hst : x86Stack mode size = 16 ∨ x86Stack mode size = 64 := by
      rcases hstack n rfl with rfl | rfl
      · left; rcases hm with rfl | rfl | rfl <;> rfl
      · rcases hs with rfl | rfl
        · exact .inl rfl
        · exact .inr rfl
    obtain ⟨t1, hn1, rfl, rfl⟩ := takes_zs h1
    have r1 := x86_reg (by rcases hst with h | h <;> simp [h]) hn1
    have hs64 : size = 16 ∨ (size = 32 ∧ x86Mode c = 64) := by
      rcases hs with h | h
      · exact .inl h
      · rcases hstack n rfl with h' | h'
        · exact .inl h'
        · exact .inr ⟨h, hmode.trans h'⟩
    have hpick : ∃ b, x86Pick p.2.2 (.r (x86Stack mode size)) none = some (b, [.zvq]) ∧ x86ApplyZ (x86Split b) n = x86Split op := by
      rcases hst with e | e
      · rw [e]
        obtain ⟨b, a, hpick, hb⟩ := pickIs_some hserve.1
        simp only [Bool.and_eq_true, beq_iff_eq] at hb
        exact ⟨b, hb.1 ▸ hpick, hb.2⟩
      · rw [e]
        obtain ⟨b, a, hpick, hb⟩ := pickIs_some hserve.2
        simp only [Bool.and_eq_true, beq_iff_eq] at hb
        exact ⟨b, hb.1 ▸ hpick, hb.2⟩
    obtain ⟨b, hpick, hb⟩ := hpick
    refine ⟨_, x86_emits hp ht hpick (.one (.reg r1)) (row_stack (size := size) hs64 (by unfold x86Split; split <;> simp) (hmode ▸ r1)), ?_⟩
    rw [hmode, hb]
    exact disasm_bare hm hs h rfl rfl
  · -- jz
    cases ha with
    | cons h1 ha =>
    cases ha
    obtain ⟨d, t1, x, hx, d1, d2, d3, rfl, rfl⟩ := takes_jz h1
    have hsize : size = x86Default mode := by simpa [x86Legal] using hlegal
    obtain ⟨b, a, hpick, hb⟩ := pickIs_some hserve
    simp only [Bool.and_eq_true, beq_iff_eq] at hb
    obtain ⟨rfl, rfl⟩ := hb
    obtain ⟨out, e1, e2, e3⟩ := row_jump (t := t) (base := x86Split b) hsy hpc hmode hm hx
    refine ⟨_, x86_emits hp ht hpick (.one (.num (x86_number hsy hx))) e3, ?_⟩
    rw [← hsize] at e1 e2
    have hpre := pre_default (x86Split b) hm hsize
    have := disasm_bare (tail := out) (os := [.rel d]) hm hs h rfl (by
      simp only [x86Operands, rel_decode mode hs e1 e2 d1 d2 d3]
      rfl)
    rw [hpre] at this
    exact this
  · -- rd, cd
    cases ha with
    | cons h1 ha =>
    cases ha with
    | cons h2 ha =>
    cases ha
    obtain ⟨n1, t1, hn1, rfl, rfl⟩ := takes_rd h1
    obtain ⟨n2, t2, hn2, rfl, rfl⟩ := takes_cd h2
    have r1 := x86_reg (bits := 32) (by simp) hn1
    have r2 := x86_creg hn2
    have hsize : size = x86Default mode := by
      simp only [x86Legal, Bool.and_eq_true, beq_iff_eq] at hlegal
      exact hlegal.2
    obtain ⟨b, a, hpick, hb⟩ := pickIs_some hserve
    simp only [Bool.and_eq_true, beq_iff_eq] at hb
    obtain ⟨rfl, rfl⟩ := hb
    refine ⟨_, x86_emits hp ht hpick (.two (.reg r1) (.creg r2.2.1)) (row_rd_cd r1 r2), ?_⟩
    have hpre := pre_default (x86Split b) hm hsize
    have := disasm_modrm (os := [.reg 32 n1, .creg n2]) hm hs h rfl (modrm_reg mode r2.1 r1.1) rfl
    rw [hpre] at this
    exact this
  · -- cd, rd
    cases ha with
    | cons h1 ha =>
    cases ha with
    | cons h2 ha =>
    cases ha
    obtain ⟨n1, t1, hn1, rfl, rfl⟩ := takes_cd h1
    obtain ⟨n2, t2, hn2, rfl, rfl⟩ := takes_rd h2
    have r1 := x86_creg hn1
    have r2 := x86_reg (bits := 32) (by simp) hn2
    have hsize : size = x86Default mode := by
      simp only [x86Legal, Bool.and_eq_true, beq_iff_eq] at hlegal
      exact hlegal.2
    obtain ⟨b, a, hpick, hb⟩ := pickIs_some hserve
    simp only [Bool.and_eq_true, beq_iff_eq] at hb
    obtain ⟨rfl, rfl⟩ := hb
    refine ⟨_, x86_emits hp ht hpick (.two (.creg r1.2.1) (.reg r2)) (row_cd_rd r1 r2), ?_⟩
    have hpre := pre_default (x86Split b) hm hsize
    have := disasm_modrm (os := [.creg n1, .reg 32 n2]) hm hs h rfl (modrm_reg mode r1.1 r2.1) rfl
    rw [hpre] at this
    exact this
  · cases hserve

end

/-! ## instructions without operands -/

/-- The code of the first row without operands. -/
def x86First (rows : List (Nat × List X86Arg)) : Option Nat := (rows.find? fun r => r.2.isEmpty).map Prod.fst

/-- The check of one opcode and mode. -/
def x86PlainCheck (mode op : Nat) : Bool :=
  match x86Plain mode (x86Default mode) op with
  | none => true
  | some names => names.all fun n => n == "RETN" ||
      (match x86PlainRows.find? fun p => p.1 == n with
      | none => false
      | some p => x86First p.2.2 == some op && !("REP".toList.isPrefixOf n.toList) && (mode != 16 || (n != "STOSD" && n != "LODSD")))

theorem x86PlainCheck_all : ∀ mode ∈ [16, 32, 64], (List.range 256).all (x86PlainCheck mode) = true := by decide +kernel

theorem x86Pack_one (n : Nat) (c : Ctx) : H.lift (x86Pack [n]) c = (.ok [BitVec.ofNat 8 n], []) := by rw [x86Pack_ok]; rfl

theorem call_bare (next : H (Option Bytes)) (t : Str) (us : List Str) (op : Nat) (rows : List (Nat × List X86Arg)) (c : Ctx) :
    x86Call next (t :: us) ((op, []) :: rows) c =
      (if (upper t = "STOSD".toList ∨ upper t = "LODSD".toList) ∧ x86Mode c = 16 then H.lift (x86Pack [0x66, op]) >>= fun b => pure (some b)
      else if "REP".toList.isPrefixOf (upper t) = true then H.lift (x86Pack [op]) >>= fun b => next >>= fun r =>
        match r with
        | none => H.throw .typeError
        | some r => pure (some (b ++ r))
      else if us.length + 1 = 1 then H.lift (x86Pack [op]) >>= fun b => pure (some b)
      else H.throw .invalidOpCodeArguments) c := by
  unfold x86Call
  rw [if_pos rfl, H.bind_run (H.read_apply c)]
  rfl

theorem call_plain {next : H (Option Bytes)} {t : Str} {c : Ctx} {op : Nat} (h1 : ¬ ((upper t = "STOSD".toList ∨ upper t = "LODSD".toList) ∧ x86Mode c = 16))
    (h2 : "REP".toList.isPrefixOf (upper t) = false) : ∀ {rows : List (Nat × List X86Arg)}, x86First rows = some op →
      x86Call next [t] rows c = (.ok (some [BitVec.ofNat 8 op]), [])
  | [], h => by cases h
  | (b, args) :: rows, h => by
    by_cases he : args = []
    · subst he
      cases h
      rw [call_bare, if_neg h1, if_neg (by rw [h2]; simp), if_pos (show [].length + 1 = 1 from rfl), H.bind_run (x86Pack_one _ c)]
      rfl
    · unfold x86Call
      rw [if_neg he, if_pos (by simp)]
      refine call_plain h1 h2 ?_
      rw [← h]
      unfold x86First
      rw [List.find?_cons_of_neg (by simpa using he)]

/-- C78: every instruction without operands that has a one-byte opcode is, in the mode where that opcode has this name, that byte;
only `RETN` is left out. -/
theorem C78_plain {c : Ctx} {t : Str} {mode op : Nat} {names : List String} {name : String} (hmode : x86Mode c = mode) (hm : mode = 16 ∨ mode = 32 ∨ mode = 64) (hop : op < 256)
    (h : x86Plain mode (x86Default mode) op = some names) (hn : name ∈ names) (hret : name ≠ "RETN") (ht : eqNoCase t name.toList) :
    Emits x86 c t [] [BitVec.ofNat 8 op] [] ∧ disasmX86 mode [BitVec.ofNat 8 op] = some ⟨names, []⟩ := by
  have hmm : mode ∈ [16, 32, 64] := by rcases hm with rfl | rfl | rfl <;> decide
  constructor
  · have hc := List.all_eq_true.1 (x86PlainCheck_all mode hmm) op (List.mem_range.2 hop)
    unfold x86PlainCheck at hc
    rw [h] at hc
    have hc := List.all_eq_true.1 hc name hn
    rw [Bool.or_eq_true] at hc
    rcases hc with hc | hc
    · exact absurd (by simpa using hc) hret
    · split at hc
      · cases hc
      · next p hp =>
        simp only [Bool.and_eq_true, beq_iff_eq, Bool.not_eq_true', Bool.or_eq_true, bne_iff_ne, ne_eq] at hc
        obtain ⟨⟨hf, hrep⟩, hspec⟩ := hc
        have hname : p.1 = name := by simpa using List.find?_some hp
        have hmem := List.mem_append_right x86Rows (List.mem_of_find?_eq_some hp)
        have hup : upper t = name.toList := by
          have ht : upper t = upper name.toList := ht
          rw [ht, ← hname, x86Rows_upper p hmem]
        refine .handler (x86_instr hmem (hname ▸ ht) ?_) (call_plain ?_ (hup ▸ hrep) hf)
        · intro e
          rw [e] at hf
          cases hf
        · rintro ⟨h1, h2⟩
          rw [hup] at h1
          rcases hspec with hspec | ⟨hs1, hs2⟩
          · exact hspec (hmode ▸ h2)
          · rcases h1 with h1 | h1
            · exact hs1 (String.toList_inj.1 h1)
            · exact hs2 (String.toList_inj.1 h1)
  · have e : (BitVec.ofNat 8 op).toNat = op := by rw [BitVec.toNat_ofNat]; omega
    have hne : ∀ n < 256, n ≠ op → ¬ BitVec.ofNat 8 op = BitVec.ofNat 8 n := by
      intro n hn hne e'
      rw [e'] at e
      rw [BitVec.toNat_ofNat] at e
      omega
    have h66 : op ≠ 0x66 := by
      rintro rfl
      have : ∀ mode ∈ [16, 32, 64], x86Plain mode (x86Default mode) 0x66 = none := by decide
      rw [this mode hmm] at h
      cases h
    have h0F : op ≠ 0x0F := by
      rintro rfl
      have : ∀ mode ∈ [16, 32, 64], x86Plain mode (x86Default mode) 0x0F = none := by decide
      rw [this mode hmm] at h
      cases h
    have hd : decodeX86 mode [BitVec.ofNat 8 op] = x86Body mode (x86Default mode) op [] := by
      simp only [decodeX86, x86Opcode]
      rw [if_neg (show ¬ BitVec.ofNat 8 op = 102 from hne 0x66 (by decide) h66.symm), if_neg (show ¬ BitVec.ofNat 8 op = 15 from hne 0x0F (by decide) h0F.symm), e]
    unfold disasmX86
    rw [hd]
    simp only [x86Body, x86Shape, h, Option.bind_eq_bind, Option.bind_some, List.any_nil, Bool.false_eq_true, if_false, x86Operands, Option.pure_def]

/-- C78: in 16-bit mode `STOSD` and `LODSD` carry the prefix that makes them so. -/
theorem C78_wide {c : Ctx} {t : Str} {op : Nat} {name : String} (hmode : x86Mode c = 16) (h : (op, name) = (0xAB, "STOSD") ∨ (op, name) = (0xAD, "LODSD"))
    (ht : eqNoCase t name.toList) : Emits x86 c t [] [0x66, BitVec.ofNat 8 op] [] ∧ disasmX86 16 [0x66, BitVec.ofNat 8 op] = some ⟨[name], []⟩ := by
  have hrow : ∃ p ∈ x86PlainRows, p.1 = name ∧ p.2.2 = [(op, []), (op, [])] := by
    have : ∀ q ∈ [(0xAB, "STOSD"), (0xAD, "LODSD")], ∃ p ∈ x86PlainRows, p.1 = q.2 ∧ p.2.2 = [(q.1, []), (q.1, [])] := by decide +kernel
    exact this (op, name) (by rcases h with h | h <;> rw [h] <;> simp)
  obtain ⟨p, hp, rfl, hr⟩ := hrow
  have hmem := List.mem_append_right x86Rows hp
  constructor
  · have hup : upper t = p.1.toList := by
      have ht : upper t = upper p.1.toList := ht
      rw [ht, x86Rows_upper p hmem]
    refine .handler (x86_instr hmem ht (by rw [hr]; simp)) ?_
    rw [hr]
    rw [call_bare, if_pos, H.bind_run (show H.lift (x86Pack [0x66, op]) c = (.ok [0x66, BitVec.ofNat 8 op], []) by rw [x86Pack_ok]; rfl)]
    · rfl
    · refine ⟨?_, hmode⟩
      rw [hup]
      simp only [Prod.mk.injEq] at h
      rcases h with ⟨-, h⟩ | ⟨-, h⟩ <;> rw [h] <;> simp
  · simp only [Prod.mk.injEq] at h
    rcases h with ⟨rfl, h⟩ | ⟨rfl, h⟩ <;> rw [h] <;> decide +kernel

/-- The repeat prefixes. -/
theorem x86Conds_rep : ∀ q ∈ [("REPNZ", 0xF2), ("REPNE", 0xF2), ("REPZ", 0xF3), ("REPE", 0xF3), ("REP", 0xF3)],
    (x86Conds q.1.toList).head? = some (q.2, []) ∧ upper q.1.toList = q.1.toList ∧ "REP".toList.isPrefixOf q.1.toList = true ∧ q.1.toList ≠ "STOSD".toList ∧ q.1.toList ≠ "LODSD".toList := by
  have : ∀ q ∈ [("REPNZ", 0xF2), ("REPNE", 0xF2), ("REPZ", 0xF3), ("REPE", 0xF3), ("REP", 0xF3)],
      (x86Find x86Codes x86Table (x86Code q.1.toList)).head? = some (q.2, []) ∧ upper q.1.toList = q.1.toList ∧ "REP".toList.isPrefixOf q.1.toList = true ∧
      q.1.toList ≠ "STOSD".toList ∧ q.1.toList ≠ "LODSD".toList := by decide +kernel
  intro q hq
  rw [x86Conds_code]
  exact this q hq

/-- C78: a repeat prefix before an instruction puts its byte before the code of that instruction. -/
theorem C78_repeat {c : Ctx} {t u : Str} {us : List Str} {blob : Bytes} {rels : List Reloc} {name : String} {b : Nat}
    (hb : (name, b) ∈ [("REPNZ", 0xF2), ("REPNE", 0xF2), ("REPZ", 0xF3), ("REPE", 0xF3), ("REP", 0xF3)]) (ht : eqNoCase t name.toList)
    (h : Emits x86 c u us blob rels) : Emits x86 c t (u :: us) (BitVec.ofNat 8 b :: blob) rels := by
  obtain ⟨h1, h2, h3, h4, h5⟩ := x86Conds_rep _ hb
  simp only at h1 h2 h3 h4 h5
  have hup : upper t = name.toList := by
    have ht : upper t = upper name.toList := ht
    rw [ht, h2]
  have hnext : x86Next (u :: us) c = (.ok (some blob), rels) := by
    cases h with
    | fixed h _ =>
      simp only [x86] at h
      split at h <;> cases h
    | handler h e =>
      have hk : x86.key u = upper u := rfl
      simp only [x86] at h
      rw [show Dialect.key _ u = upper u from rfl] at h
      unfold x86Next
      split at h
      · cases h
      · next hne =>
        cases h
        cases hc : x86Conds (upper u) with
        | nil => exact absurd hc hne
        | cons r rs =>
          rw [hc] at e
          exact e
  cases hc : x86Conds name.toList with
  | nil => rw [hc] at h1; cases h1
  | cons r rs =>
    rw [hc] at h1
    cases h1
    refine .handler (f := fun tokens => x86Call (x86Next (tokens.drop 1)) tokens ((b, []) :: rs)) ?_ ?_
    · show (match x86Conds (upper t) with | [] => none | conds => some (InstrDef.handler fun tokens => x86Call (x86Next (tokens.drop 1)) tokens conds)) = _
      rw [hup, hc]
    · simp only [List.drop_succ_cons, List.drop_zero]
      rw [call_bare, hup, if_neg (by
        rintro ⟨e | e, -⟩
        · exact h4 e
        · exact h5 e), if_pos h3, H.bind_run (x86Pack_one _ c)]
      exact lift_bind hnext rfl

/-! ## the mode -/

/-- The argument of `.bits` is one of the three modes, and becomes the mode. -/
def BitsOk (s s' : St) : Prop := (s.bitsMode ∈ [0, 16, 32, 64] → s'.bitsMode ∈ [0, 16, 32, 64])

theorem rel_bits (d : Dialect) : AsmRel d BitsOk where
  refl := fun s h => h
  trans := fun h1 h2 h => h2 (h1 h)
  append := fun s b h => h
  reloc := fun s r h => h
  macros := fun s m h => h
  recording := fun s m h => h
  rep := fun s m h => h
  log := fun s m h => h
  defines := fun s m h => h
  exports := fun s m _ h => h
  pad := fun s b h => h
  org := fun s a b _ _ _ h => h
  ram := fun s n _ h => h
  label := fun s k _ _ _ _ h => h
  closeSec := fun s n sec _ _ _ h => h
  openSec := fun s n p _ _ _ h => h

theorem x86_bits_custom (env : Env) : CustomKeeps x86 env BitsOk := by
  intro key f hf ts
  simp only [x86] at hf
  split at hf
  · cases hf
    have hd := (rel_bits x86).toDataRel
    unfold x86Bits
    split
    · refine .bind hd (.readOnly hd (parseIntegerM_state _ _ _ _)) fun v => ?_
      split
      · split
        · next v hv =>
          intro s _
          rcases hv with rfl | rfl | rfl
          · exact List.mem_cons_of_mem _ (List.mem_cons_self ..)
          · exact List.mem_cons_of_mem _ (List.mem_cons_of_mem _ (List.mem_cons_self ..))
          · exact List.mem_cons_of_mem _ (List.mem_cons_of_mem _ (List.mem_cons_of_mem _ (List.mem_cons_self ..)))
        · exact .throw hd _
      · exact .throw hd _
    · exact .throw hd _
  · cases hf

/-- C79: whatever has been assembled, the mode is one of the three. -/
theorem C79_modes {env : Env} {s : St} (h : Reach x86 env s) : x86Mode (ctxOf x86 s) = 16 ∨ x86Mode (ctxOf x86 s) = 32 ∨ x86Mode (ctxOf x86 s) = 64 := by
  have := reach_of_rel (rel_bits x86) (x86_bits_custom env) h (by decide)
  simp only [List.mem_cons, List.not_mem_nil, or_false] at this
  unfold x86Mode ctxOf
  rcases this with h | h | h | h <;> simp [h]

/-- C79: a new assembler is in 64-bit mode. -/
theorem C79_first : x86Mode (ctxOf x86 x86.init) = 64 := by decide

/-- C79: `.bits` takes one of the three modes and nothing else, and changes nothing but the mode. -/
theorem C79_bits {env : Env} {rec : Str → M Unit} {t a : Str} {args more : List Str} {s : St} (ht : IsDirectiveToken x86 t "bits")
    (ha : substituteWithDict args s.defines 0 = a :: more) :
    (∀ n s', (execDirective x86 env rec (t :: args) s = (.ok (), s') ∧ x86Mode (ctxOf x86 s') = n) ↔
      (n = 16 ∨ n = 32 ∨ n = 64) ∧ parseInteger i8086.sy s.labels a 8 false = .ok (some (n : Int)) ∧ s' = { s with bitsMode := n }) ∧
    ∀ e s', execDirective x86 env rec (t :: args) s = (.error e, s') → s' = s := by
  have hex : execDirective x86 env rec (t :: args) s = x86Bits { sy := i8086.sy } (t :: a :: more) s := by
    unfold execDirective
    rw [bind_eq, get_eq]
    simp only [substitute_cons, ha]
    rw [show x86.key (t.drop 1) = x86.key "bits".toList from ht]
    rfl
  rw [hex]
  unfold x86Bits
  simp only [bind_eq, parseIntegerM]
  cases hp : parseInteger i8086.sy s.labels a 8 false with
  | error e => exact ⟨fun n s' => by simp, fun e s' h => by cases h; rfl⟩
  | ok o =>
    cases o with
    | none => exact ⟨fun n s' => by simp [M.throw], fun e s' h => by cases h; rfl⟩
    | some v =>
      simp only
      split
      · next hv =>
        refine ⟨fun n s' => ?_, fun e s' h => by cases h⟩
        simp only [M.modify, Prod.mk.injEq, true_and, Except.ok.injEq, Option.some.injEq]
        have hn : v.toNat ≠ 0 := by omega
        constructor
        · rintro ⟨rfl, rfl⟩
          simp only [x86Mode, ctxOf, hn, if_false]
          exact ⟨by omega, by omega, trivial⟩
        · rintro ⟨h1, rfl, rfl⟩
          refine ⟨by simp, ?_⟩
          rcases h1 with rfl | rfl | rfl <;> rfl
      · next hv =>
        refine ⟨fun n s' => ?_, fun e s' h => by cases h; rfl⟩
        simp only [M.throw, Prod.mk.injEq, reduceCtorEq, false_and, Except.ok.injEq, Option.some.injEq, false_iff, not_and]
        intro h1 h2
        omega

/-! ## cases -/

def exX16 : Ctx := ⟨0x100, [], i8086.sy, 16⟩
def exX32 : Ctx := ⟨0x100, [], i8086.sy, 32⟩
def exX64 : Ctx := ⟨0x100, [], i8086.sy, 0⟩

def x86Line (c : Ctx) (t : String) (rest : List String) : Option Bytes := lineBytes x86 c t.toList (rest.map String.toList)

/-- The same, with the rows looked up by number. -/
def x86Fast (c : Ctx) (t : String) (rest : List String) : Option Bytes :=
  match x86Find x86Codes x86Table (x86Code (upper t.toList)) with
  | [] => none
  | conds =>
    match (x86Call (x86Next (rest.map String.toList)) (t.toList :: rest.map String.toList) conds c).1 with
    | .ok o => o
    | .error _ => none

theorem x86Line_fast (c : Ctx) (t : String) (rest : List String) : x86Line c t rest = x86Fast c t rest := by
  unfold x86Line lineBytes x86Fast
  rw [show x86.instrs (x86.key t.toList) = match x86Conds (upper t.toList) with
    | [] => none
    | conds => some (InstrDef.handler fun tokens => x86Call (x86Next (tokens.drop 1)) tokens conds) from rfl, x86Conds_code]
  cases x86Find x86Codes x86Table (x86Code (upper t.toList)) <;> rfl

/-- `add [bx + si + 0x1234], cx` in 16-bit mode -/
example : ∃ blob, Emits x86 exX16 "add".toList (["[", "bx", "+", "si", "+", "0x1234", "]", "cx"].map String.toList) blob [] ∧
    disasmX86 16 blob = some ⟨["ADD"], [.mem 0 0x1234, .reg 16 1]⟩ := by
  have h := C78_code (c := exX16) (t := "add".toList) (mode := 16) (size := 16) (names := ["ADD"]) (op := 1) (kinds := [.ev, .gv]) (name := "ADD")
    (os := [.mem 0 0x1234, .reg 16 1]) (rest := ["[", "bx", "+", "si", "+", "0x1234", "]", "cx"].map String.toList)
    rfl (by decide) rfl (.inl rfl) (.inl rfl) (by decide +kernel) (by simp) (by decide) (by unfold eqNoCase; decide) (fun n hn => by simp at hn)
    (.cons (ts := ["[", "bx", "+", "si", "+", "0x1234", "]"].map String.toList) (us := ["cx".toList])
      (.plus (b := 0) (d := 0x1234) (ts := ["bx", "+", "si"].map String.toList) (v := "0x1234".toList) (x := 0x1234) rfl rfl (by simp)
        (base_iff.2 (by decide)) ⟨false, ⟨0x1234, by decide +kernel, by decide +kernel⟩, by unfold M68Fits; decide⟩ (by decide))
      (.cons (ts := ["cx".toList]) (us := []) (.reg (by simp) ⟨"CX", by decide, by unfold eqNoCase; decide⟩) .nil))
  exact h

/-- `mov ecx, -5` in 16-bit, 32-bit and 64-bit mode -/
example : ∀ c ∈ [exX16, exX32, exX64], ∃ blob, Emits x86 c "mov".toList (["ecx", "-5"].map String.toList) blob [] ∧
    disasmX86 (x86Mode c) blob = some ⟨["MOV"], [.reg 32 1, .imm 0xFFFFFFFB]⟩ := by
  intro c hc
  have hsy : c.sy = i8086.sy ∧ 0 ≤ c.pc ∧ (x86Mode c = 16 ∨ x86Mode c = 32 ∨ x86Mode c = 64) ∧ c.labels = [] := by
    simp only [List.mem_cons, List.not_mem_nil, or_false] at hc
    rcases hc with rfl | rfl | rfl <;> exact ⟨rfl, by decide, by decide, rfl⟩
  have h := C78_code (c := c) (t := "mov".toList) (size := 32) (names := ["MOV"]) (op := 0xB9) (kinds := [.zv 1, .iv]) (name := "MOV")
    (os := [.reg 32 1, .imm 0xFFFFFFFB]) (rest := ["ecx", "-5"].map String.toList)
    hsy.1 hsy.2.1 rfl hsy.2.2.1 (.inr rfl) (by rcases hsy.2.2.1 with h | h | h <;> rw [h] <;> decide +kernel) (by simp) (by decide) (by unfold eqNoCase; decide) (fun n hn => by simp at hn)
    (.cons (ts := ["ecx".toList]) (us := ["-5".toList]) (.reg (by simp) ⟨"ECX", by decide, by unfold eqNoCase; decide⟩)
      (.cons (ts := ["-5".toList]) (us := []) (.imm (x := -5) (by
        rw [show m68Number c = fun use n tok x => ∃ dec, TokenValue c.sy c.labels tok x dec ∧ M68Fits use n x dec from rfl, hsy.1, hsy.2.2.2]
        exact ⟨true, ⟨-5, by decide +kernel, by decide +kernel⟩, by unfold M68Fits; decide⟩) (by decide)) .nil))
  exact h

/-- The words those lines, and others of each kind, become. -/
example :
    x86Line exX16 "add" ["[", "bx", "+", "si", "+", "0x1234", "]", "cx"] = some [0x01, 0x88, 0x34, 0x12] ∧
    x86Line exX16 "mov" ["ecx", "-5"] = some [0x66, 0xB9, 0xFB, 0xFF, 0xFF, 0xFF] ∧
    x86Line exX32 "mov" ["ecx", "-5"] = some [0xB9, 0xFB, 0xFF, 0xFF, 0xFF] ∧
    x86Line exX64 "push" ["rbx"] = some [0x53] ∧
    x86Line exX64 "cmovz" ["cx", "dx"] = some [0x66, 0x0F, 0x44, 0xCA] ∧
    x86Line exX32 "mov" ["cr0", "eax"] = some [0x0F, 0x22, 0xC0] ∧
    x86Line exX64 "bswap" ["edi"] = some [0x0F, 0xCF] ∧
    x86Line exX16 "jnz" ["-4"] = some [0x0F, 0x85, 0xFC, 0xFF] ∧
    x86Line exX32 "call" ["0x10"] = some [0xE8, 0x10, 0, 0, 0] ∧
    x86Line exX32 "repne" ["scasb"] = some [0xF2, 0xAE] ∧
    x86Line exX16 "stosd" [] = some [0x66, 0xAB] ∧
    x86Line exX32 "cwde" [] = some [0x98] := by
  simp only [x86Line_fast]
  refine ⟨?_, ?_, ?_, ?_, ?_, ?_, ?_, ?_, ?_, ?_, ?_, ?_⟩ <;> decide +kernel

/-- The hypotheses of the others. -/
example : (x86Plain 16 (x86Default 16) 0x98 = some ["CBW"] ∧ x86Plain 64 (x86Default 64) 0x98 = some ["CWDE"]) ∧
    Emits x86 exX64 "rep".toList ["movsb".toList] [0xF3, 0xA4] [] :=
  ⟨by decide, C78_repeat (name := "REP") (b := 0xF3) (by simp) (by unfold eqNoCase; decide)
    (C78_plain (mode := 64) (op := 0xA4) (names := ["MOVSB"]) (name := "MOVSB") (c := exX64) rfl (by simp) (by decide) (by decide) (by simp) (by decide) (by unfold eqNoCase; decide)).1⟩

/-- The bytes of a line and the instruction they are. -/
def x86Shows (c : Ctx) (t : String) (rest : List String) : Option (Bytes × Option X86Instr) := (x86Line c t rest).map fun b => (b, disasmX86 (x86Mode c) b)

/-- C78: what is left out, first half: the mnemonics of `x86Lost` and other rows whose bytes lack the operands. -/
theorem C78_odd_rows :
    x86Shows exX32 "cmp" ["eax", "ebx"] = some ([0x39], none) ∧ x86Shows exX32 "cmp" ["eax", "5"] = some ([0x39], none) ∧
    x86Shows exX32 "test" ["eax", "ebx"] = some ([0x85], none) ∧ x86Shows exX32 "xchg" ["ecx", "ebx"] = some ([0x87], none) ∧
    x86Shows exX32 "bt" ["eax", "ebx"] = some ([0x0F, 0xA3], none) ∧ x86Shows exX32 "xadd" ["eax", "ebx"] = some ([0x0F, 0xC1], none) ∧
    x86Shows exX32 "imul" ["eax", "ebx"] = some ([0x69, 0xC3], none) ∧ x86Shows exX32 "mul" ["ebx"] = none ∧
    x86Shows exX32 "not" ["eax"] = some ([0xF7], none) ∧ x86Shows exX32 "inc" ["eax"] = some ([0xFF], none) ∧
    -- an immediate operand for another register than the accumulator
    x86Shows exX32 "add" ["ebx", "5"] = some ([0x81, 5, 0, 0, 0], none) ∧
    -- two-byte opcodes without operands: only the second byte
    x86Shows exX64 "syscall" [] = some ([0x05], none) ∧ x86Shows exX64 "cpuid" [] = some ([0xA2], none) ∧
    x86Shows exX32 "retn" [] = some ([0xC2], none) := by
  simp only [x86Shows, x86Line_fast]
  refine ⟨?_, ?_, ?_, ?_, ?_, ?_, ?_, ?_, ?_, ?_, ?_, ?_, ?_, ?_⟩ <;> decide +kernel

/-- C78: what is left out, second half: operands and modes. -/
theorem C78_odd_modes :
    -- `[BP]` is the code of an address that does not follow
    x86Shows exX16 "mov" ["ax", "[", "bp", "]"] = some ([0x8B, 0x06], none) ∧
    -- a displacement beside a 32-bit register has four bytes in 16-bit mode, where two are read
    x86Shows exX16 "mov" ["eax", "[", "bx", "+", "5", "]"] = some ([0x66, 0x8B, 0x87, 5, 0, 0, 0], none) ∧
    -- in the other modes addresses have the codes of the 8086: `[EBX]` is `[EDI]`
    x86Shows exX32 "mov" ["eax", "[", "ebx", "]"] = some ([0x8B, 0x07], some ⟨["MOV"], [.reg 32 0, .ind 7 0]⟩) ∧
    -- 64-bit registers are the 32-bit ones, with immediate operands of eight bytes
    x86Shows exX64 "mov" ["rax", "rbx"] = some ([0x89, 0xD8], some ⟨["MOV"], [.reg 32 0, .reg 32 3]⟩) ∧
    x86Shows exX64 "mov" ["rax", "5"] = some ([0xB8, 5, 0, 0, 0, 0, 0, 0, 0], none) ∧
    -- the stack: 32-bit registers are refused, 64-bit ones taken in every mode
    x86Shows exX32 "push" ["eax"] = none ∧ x86Shows exX32 "push" ["rax"] = some ([0x50], some ⟨["PUSH"], [.reg 32 0]⟩) ∧
    -- the string instructions of the other size have no prefix
    x86Shows exX32 "stosw" [] = some ([0xAB], some ⟨["STOSD"], []⟩) ∧ x86Shows exX16 "movsd" [] = some ([0xA5], some ⟨["MOVSW"], []⟩) ∧
    -- registers of different sizes, and a third operand
    x86Shows exX32 "add" ["ax", "ebx"] = some ([0x66, 0x01, 0xD8], some ⟨["ADD"], [.reg 16 0, .reg 16 3]⟩) ∧
    x86Shows exX32 "mov" ["eax", "ebx", "ecx"] = some ([0x89, 0xD8], some ⟨["MOV"], [.reg 32 0, .reg 32 3]⟩) ∧
    -- bytes and segment registers
    x86Shows exX64 "mov" ["al", "bl"] = none ∧ x86Shows exX64 "mov" ["ds", "ax"] = none := by
  simp only [x86Shows, x86Line_fast]
  refine ⟨?_, ?_, ?_, ?_, ?_, ?_, ?_, ?_, ?_, ?_, ?_, ?_, ?_⟩ <;> decide +kernel

/-- `.bits 16` at the start of a source -/
example : (execDirective x86 {} (fun _ => pure ()) [".BITS".toList, "16".toList] x86.init).2.bitsMode = 16 ∧
    (execDirective x86 {} (fun _ => pure ()) [".bits".toList, "17".toList] x86.init).1.toOption = none ∧
    (assemble x86 {} 3 ".bits 16\nmov eax, ebx\n.bits 32\nmov eax, ebx\n".toList x86.init).2.bytes = [0x66, 0x89, 0xD8, 0x89, 0xD8] := by decide +kernel

example : IsDirectiveToken x86 ".Bits".toList "bits" ∧ substituteWithDict ["32".toList] x86.init.defines 0 = ["32".toList] ∧
    parseInteger i8086.sy x86.init.labels "32".toList 8 false = .ok (some 32) := ⟨by unfold IsDirectiveToken; decide, rfl, by
      rw [C13_parse_iff _ _ _ _ _ _ (by decide)]
      exact ⟨32, true, ⟨32, by decide +kernel, by decide +kernel⟩, by decide⟩⟩

end Necro
