import Verif.Lemmas.X86Table
import Verif.Lemmas.I86Accept
import Verif.Spec.X86
/-!
# Which row of the x86 table is used, and what it emits
-/

namespace Necro
open Spec

theorem x86Regs_eq : (x86Names 16).map String.toList = x86Regs16 ∧ (x86Names 32).map String.toList = x86Regs32 ∧
    (x86Names 64).map String.toList = x86Regs64 ∧ x86NamesC.map String.toList = x86Cregs := by decide +kernel

/-- What a token is. -/
inductive X86Tok where
  | r (bits : Nat) | c | op | num
deriving DecidableEq

inductive X86Is : X86Tok → Str → Prop
  | r16 {t} : upper t ∈ x86Regs16 → X86Is (.r 16) t
  | r32 {t} : upper t ∈ x86Regs32 → X86Is (.r 32) t
  | r64 {t} : upper t ∈ x86Regs64 → X86Is (.r 64) t
  | c {t} : upper t ∈ x86Cregs → X86Is .c t
  | op : X86Is .op ['[']
  | num {t} : upper t ∉ x86AllRegs ++ [['['], [']']] → X86Is .num t

theorem in16 {x : Str} (h : x ∈ x86Regs16) : x ∉ x86Regs32 ∧ x ∉ x86Regs64 ∧ x ∉ x86Cregs ∧ x ≠ ['['] ∧ x ∈ x86AllRegs ++ [['['], [']']] := by
  revert x; decide
theorem in32 {x : Str} (h : x ∈ x86Regs32) : x ∉ x86Regs16 ∧ x ∉ x86Regs64 ∧ x ∉ x86Cregs ∧ x ≠ ['['] ∧ x ∈ x86AllRegs ++ [['['], [']']] := by
  revert x; decide
theorem in64 {x : Str} (h : x ∈ x86Regs64) : x ∉ x86Regs16 ∧ x ∉ x86Regs32 ∧ x ∉ x86Cregs ∧ x ≠ ['['] ∧ x ∈ x86AllRegs ++ [['['], [']']] := by
  revert x; decide
theorem inC {x : Str} (h : x ∈ x86Cregs) : x ∉ x86Regs16 ∧ x ∉ x86Regs32 ∧ x ∉ x86Regs64 ∧ x ≠ ['['] ∧ x ∈ x86AllRegs ++ [['['], [']']] := by
  revert x; decide
theorem inOp : upper ['['] ∉ x86Regs16 ∧ upper ['['] ∉ x86Regs32 ∧ upper ['['] ∉ x86Regs64 ∧ upper ['['] ∉ x86Cregs ∧
    upper ['['] = ['['] ∧ upper ['['] ∈ x86AllRegs ++ [['['], [']']] := by decide
theorem inNum {x : Str} (h : x ∉ x86AllRegs ++ [['['], [']']]) : x ∉ x86Regs16 ∧ x ∉ x86Regs32 ∧ x ∉ x86Regs64 ∧ x ∉ x86Cregs ∧ x ≠ ['['] := by
  simp only [x86AllRegs, List.mem_append, List.mem_cons, not_or] at h
  obtain ⟨⟨⟨⟨⟨⟨h1, h2⟩, h3⟩, h4⟩, h5⟩, h6⟩, h7, h8⟩ := h
  exact ⟨h2, h3, h4, h5, h7⟩

theorem rax_r : "AX".toList ∈ x86Regs16 ∧ "EAX".toList ∈ x86Regs32 ∧ "RAX".toList ∈ x86Regs64 := by decide

theorem not_rax {x : Str} (h1 : x ∉ x86Regs16) (h2 : x ∉ x86Regs32) (h3 : x ∉ x86Regs64) : x ≠ "AX".toList ∧ x ≠ "EAX".toList ∧ x ≠ "RAX".toList :=
  ⟨fun e => h1 (e ▸ rax_r.1), fun e => h2 (e ▸ rax_r.2.1), fun e => h3 (e ▸ rax_r.2.2)⟩

/-- The argument function refuses such a token. -/
def x86Skip : X86Arg → X86Tok → Bool
  | .pass, _ => true
  | .evqp, .c | .evqp, .num => true
  | .gvqp, .c | .gvqp, .num | .gvqp, .op => true
  | .zvqp, .c | .zvqp, .num | .zvqp, .op => true
  | .zvq, .c | .zvq, .num | .zvq, .op => true
  | .rax, .c | .rax, .num | .rax, .op => true
  | .ivds, .c | .ivds, .r _ | .ivds, .op => true
  | .ivqp, .c | .ivqp, .r _ | .ivqp, .op => true
  | .jvds, .c | .jvds, .r _ | .jvds, .op => true
  | .m, .c | .m, .r _ | .m, .num => true
  | .rd, .c | .rd, .num | .rd, .op | .rd, .r 16 | .rd, .r 64 => true
  | .cd, .r _ | .cd, .num | .cd, .op => true
  | _, _ => false

theorem x86_not_open {t : Str} {x : Str} (h : upper t = x) (hx : x ≠ ['[']) : t ≠ ['['] := by
  rintro rfl
  exact hx (h ▸ inOp.2.2.2.2.1)

set_option maxHeartbeats 2000000 in
theorem skip_run {a : X86Arg} {k : X86Tok} {t : Str} {tokens us : List Str} {base : List Nat} {index : Nat} {m : X86Modrm} {c : Ctx}
    (hs : x86Skip a k = true) (hk : X86Is k t) (ht : tokens.drop index = t :: us) : a.run tokens base index m c = (.ok (none, m), []) := by
  have T := fun {β} (f : Str → H β) => H.bind_run (f := f) (token_run ht c)
  have R := fun {β} (f : Ctx → H β) => H.bind_run (f := f) (H.read_apply c)
  cases hk with
  | r16 h =>
    have ⟨h1, h2, h3, h4, h5⟩ := in16 h
    have h6 : t ≠ ['['] := x86_not_open rfl h4
    cases a <;> first | (cases hs; done) | skip
    all_goals simp only [X86Arg.run]
    all_goals first | rfl | rw [T]
    all_goals try simp only [x86Imm, h1, h2, h3, h4, h5, h6, if_true, if_false]
    all_goals first | rfl | (rw [R]; simp only [h5, if_true]; rfl)
  | r32 h =>
    have ⟨h1, h2, h3, h4, h5⟩ := in32 h
    have h6 : t ≠ ['['] := x86_not_open rfl h4
    cases a <;> first | (cases hs; done) | skip
    all_goals simp only [X86Arg.run]
    all_goals first | rfl | rw [T]
    all_goals try simp only [x86Imm, h1, h2, h3, h4, h5, h6, if_true, if_false]
    all_goals first | rfl | (rw [R]; simp only [h5, if_true]; rfl)
  | r64 h =>
    have ⟨h1, h2, h3, h4, h5⟩ := in64 h
    have h6 : t ≠ ['['] := x86_not_open rfl h4
    cases a <;> first | (cases hs; done) | skip
    all_goals simp only [X86Arg.run]
    all_goals first | rfl | rw [T]
    all_goals try simp only [x86Imm, h1, h2, h3, h4, h5, h6, if_true, if_false]
    all_goals first | rfl | (rw [R]; simp only [h5, if_true]; rfl)
  | c h =>
    have ⟨h1, h2, h3, h4, h5⟩ := inC h
    have h6 : t ≠ ['['] := x86_not_open rfl h4
    obtain ⟨n1, n2, n3⟩ := not_rax h1 h2 h3
    cases a <;> first | (cases hs; done) | skip
    all_goals simp only [X86Arg.run]
    all_goals first | rfl | rw [T]
    all_goals try simp only [x86Imm, h1, h2, h3, h4, h5, h6, if_true, if_false]
    all_goals first | rfl | (rw [R]; simp only [h1, h2, h3, h5, n1, n2, n3, if_true, if_false]; rfl)
  | op =>
    have ⟨h1, h2, h3, h4, h5, h6⟩ := inOp
    obtain ⟨n1, n2, n3⟩ := not_rax h1 h2 h3
    cases a <;> first | (cases hs; done) | skip
    all_goals simp only [X86Arg.run]
    all_goals first | rfl | rw [T]
    all_goals try simp only [x86Imm, h1, h2, h3, h4, h6, if_true, if_false]
    all_goals first | rfl | (rw [R]; simp only [h1, h2, h3, h6, n1, n2, n3, if_true, if_false]; rfl)
  | num h =>
    have ⟨h1, h2, h3, h4, h5⟩ := inNum h
    have h6 : t ≠ ['['] := x86_not_open rfl h5
    obtain ⟨n1, n2, n3⟩ := not_rax h1 h2 h3
    cases a <;> first | (cases hs; done) | skip
    all_goals simp only [X86Arg.run]
    all_goals first | rfl | rw [T]
    all_goals try simp only [x86Imm, h1, h2, h3, h4, h5, h6, if_true, if_false]
    all_goals first | rfl | (rw [R]; simp only [h1, h2, h3, n1, n2, n3, if_true, if_false]; rfl)

/-! ## one argument -/

/-- The opcode with the prefix the operand size needs. -/
def x86Pre (mode bits : Nat) (base : List Nat) : List Nat :=
  if (bits = 16 ∧ mode ≠ 16) ∨ (bits = 32 ∧ mode = 16) then 0x66 :: base else base

/-- The token is register `n` of that size. -/
def X86Reg (bits n : Nat) (t : Str) : Prop :=
  n < 8 ∧ ((bits = 16 ∧ upper t ∈ x86Regs16 ∧ x86Regs16.idxOf (upper t) = n) ∨ (bits = 32 ∧ upper t ∈ x86Regs32 ∧ x86Regs32.idxOf (upper t) = n) ∨
    (bits = 64 ∧ upper t ∈ x86Regs64 ∧ x86Regs64.idxOf (upper t) = n))

theorem X86Reg.is {bits n : Nat} {t : Str} (h : X86Reg bits n t) : X86Is (.r bits) t := by
  obtain ⟨-, ⟨rfl, h, -⟩ | ⟨rfl, h, -⟩ | ⟨rfl, h, -⟩⟩ := h
  · exact .r16 h
  · exact .r32 h
  · exact .r64 h

theorem evqp_reg {bits n : Nat} {t : Str} {tokens us : List Str} {base : List Nat} {index : Nat} {m : X86Modrm} {c : Ctx} {b : Bytes}
    (hr : X86Reg bits n t) (ht : tokens.drop index = t :: us)
    (hb : x86Late (x86Size (x86Mode c) bits base { m with mod := some 3, rm := some n }).1 (x86Size (x86Mode c) bits base { m with mod := some 3, rm := some n }).2 c = (.ok b, [])) :
    X86Arg.evqp.run tokens base index m c =
      (.ok (some (1, (x86Size (x86Mode c) bits base { m with mod := some 3, rm := some n }).1, b), (x86Size (x86Mode c) bits base { m with mod := some 3, rm := some n }).2), []) := by
  have key : ∀ names, names.idxOf (upper t) = n → x86RegE names bits t base m c =
      (.ok (some (1, (x86Size (x86Mode c) bits base { m with mod := some 3, rm := some n }).1, b), (x86Size (x86Mode c) bits base { m with mod := some 3, rm := some n }).2), []) := by
    intro names e
    unfold x86RegE
    rw [H.bind_run (H.read_apply c), e]
    exact lift_bind hb rfl
  simp only [X86Arg.run]
  rw [H.bind_run (token_run ht c)]
  obtain ⟨-, ⟨rfl, h, e⟩ | ⟨rfl, h, e⟩ | ⟨rfl, h, e⟩⟩ := hr
  · rw [if_pos h]; exact key _ e
  · rw [if_neg (in32 h).1, if_pos h]; exact key _ e
  · rw [if_neg (in64 h).1, if_neg (in64 h).2.1, if_pos h]; exact key _ e

theorem gvqp_reg {bits n : Nat} {t : Str} {tokens us : List Str} {base : List Nat} {index : Nat} {m : X86Modrm} {c : Ctx} {b : Bytes}
    (hr : X86Reg bits n t) (ht : tokens.drop index = t :: us)
    (hb : if 1 < index then x86Build (x86Size (x86Mode c) bits base { m with reg := some n }).1.length (x86Size (x86Mode c) bits base { m with reg := some n }).2 c = (.ok b, [])
      else b = []) :
    X86Arg.gvqp.run tokens base index m c =
      (.ok (some (1, (x86Size (x86Mode c) bits base { m with reg := some n }).1, b), (x86Size (x86Mode c) bits base { m with reg := some n }).2), []) := by
  have key : ∀ names, names.idxOf (upper t) = n → x86RegG names bits t base index m c =
      (.ok (some (1, (x86Size (x86Mode c) bits base { m with reg := some n }).1, b), (x86Size (x86Mode c) bits base { m with reg := some n }).2), []) := by
    intro names e
    unfold x86RegG
    rw [H.bind_run (H.read_apply c), e]
    by_cases hi : 1 < index
    · rw [if_pos hi] at hb
      simp only [if_pos hi]
      exact lift_bind hb rfl
    · rw [if_neg hi] at hb
      simp only [if_neg hi, hb]
      rfl
  simp only [X86Arg.run]
  rw [H.bind_run (token_run ht c)]
  obtain ⟨-, ⟨rfl, h, e⟩ | ⟨rfl, h, e⟩ | ⟨rfl, h, e⟩⟩ := hr
  · rw [if_pos h]; exact key _ e
  · rw [if_neg (in32 h).1, if_pos h]; exact key _ e
  · rw [if_neg (in64 h).1, if_neg (in64 h).2.1, if_pos h]; exact key _ e

theorem x86Mem_run {tokens : List Str} {base : List Nat} {index : Nat} {m : X86Modrm} {c : Ctx} {ts vs : List Str} {mod rm : Nat} {d : Option Str} {b : Bytes}
    (ht : tokens.drop index = ['['] :: ts ++ [']'] :: vs) (hn : [']'] ∉ ts) (hg : x86GetMod ts = some (mod, rm, ts.length, d))
    (h : x86Late base { m with mod := some mod, rm := some rm, disp := d } c = (.ok b, [])) :
    x86Mem tokens base index m c = (.ok (some (ts.length + 2, base, b), { m with mod := some mod, rm := some rm, disp := d }), []) := by
  have hd : tokens.drop (index + 1) = ts ++ [']'] :: vs := by rw [← List.drop_drop, ht]; rfl
  unfold x86Mem
  simp only [hd]
  rw [if_pos (by simp), take_idx rfl hn, hg]
  simp only
  unfold H.tryCatch
  have := lift_bind (g := fun b => (pure (some (2 + ts.length, base, b), { m with mod := some mod, rm := some rm, disp := d }) : H X86Result)) h rfl
  rw [this]
  simp [Nat.add_comm]

theorem x86MemArg_run {a : X86Arg} (ha : a = .evqp ∨ a = .m) {tokens : List Str} {base : List Nat} {index : Nat} {m : X86Modrm} {c : Ctx} {ts vs : List Str} {mod rm : Nat}
    {d : Option Str} {b : Bytes} (ht : tokens.drop index = ['['] :: ts ++ [']'] :: vs) (hn : [']'] ∉ ts) (hg : x86GetMod ts = some (mod, rm, ts.length, d))
    (h : x86Late base { m with mod := some mod, rm := some rm, disp := d } c = (.ok b, [])) :
    a.run tokens base index m c = (.ok (some (ts.length + 2, base, b), { m with mod := some mod, rm := some rm, disp := d }), []) := by
  have ⟨h1, h2, h3, h4, h5, h6⟩ := inOp
  rcases ha with rfl | rfl
  · simp only [X86Arg.run]
    rw [H.bind_run (token_run ht c), if_neg h1, if_neg h2, if_neg h3, if_pos h5]
    exact x86Mem_run ht hn hg h
  · simp only [X86Arg.run]
    rw [H.bind_run (token_run ht c), if_pos rfl]
    exact x86Mem_run ht hn hg h

/-! ## the operands of a line, as far as the choice of the row goes -/

inductive X86Op : X86Tok → List Str → Prop
  | reg {bits n t} : X86Reg bits n t → X86Op (.r bits) [t]
  | creg {t} : upper t ∈ x86Cregs → X86Op .c [t]
  | num {t} : upper t ∉ x86AllRegs ++ [['['], [']']] → X86Op .num [t]
  | mem {ts mod rm d} : [']'] ∉ ts → x86GetMod ts = some (mod, rm, ts.length, d) → X86Op .op (['['] :: ts ++ [[']']])

theorem X86Op.head {k : X86Tok} {ts : List Str} (h : X86Op k ts) : ∃ t us, ts = t :: us ∧ X86Is k t := by
  cases h with
  | reg h => exact ⟨_, _, rfl, h.is⟩
  | creg h => exact ⟨_, _, rfl, .c h⟩
  | num h => exact ⟨_, _, rfl, .num h⟩
  | mem => exact ⟨_, _, rfl, .op⟩

theorem X86Op.skip {a : X86Arg} {k : X86Tok} {ts tokens us : List Str} {base : List Nat} {index : Nat} {m : X86Modrm} {c : Ctx}
    (hs : x86Skip a k = true) (hk : X86Op k ts) (ht : tokens.drop index = ts ++ us) : a.run tokens base index m c = (.ok (none, m), []) := by
  obtain ⟨t, vs, rfl, hk'⟩ := hk.head
  exact skip_run hs hk' ht

/-- Argument functions that, in the first place, read no number. -/
def x86Soft : X86Arg → Bool
  | .evqp | .gvqp | .zvqp | .zvq | .rax | .rd | .cd | .pass => true
  | _ => false

set_option maxHeartbeats 2000000 in
theorem soft_run {a : X86Arg} {k : X86Tok} {ts tokens us : List Str} {base : List Nat} {c : Ctx}
    (hs : x86Soft a = true) (hk : X86Op k ts) (ht : tokens.drop 1 = ts ++ us) :
    ∃ r m', a.run tokens base 1 {} c = (.ok (r, m'), []) ∧ (r = none ∨ ∃ base' b, r = some (ts.length, base', b)) := by
  by_cases hskip : x86Skip a k = true
  · exact ⟨none, _, hk.skip hskip ht, .inl rfl⟩
  cases hk with
  | @reg bits n t h =>
    have T := fun {β} (f : Str → H β) => H.bind_run (f := f) (token_run (show tokens.drop 1 = t :: us from ht) c)
    have R := fun {β} (f : Ctx → H β) => H.bind_run (f := f) (H.read_apply c)
    have rest : ∀ {x}, X86Is (.r bits) t → x = t → (a = .zvqp ∨ a = .zvq ∨ a = .rax ∨ a = .rd) → ∃ r m', a.run tokens base 1 {} c = (.ok (r, m'), []) ∧
        (r = none ∨ ∃ base' b, r = some ([t].length, base', b)) := by
      rintro x - - (rfl | rfl | rfl | rfl)
      · simp only [X86Arg.run]
        rw [T, R]
        repeat' split
        all_goals first | exact ⟨none, _, rfl, .inl rfl⟩ | exact ⟨_, _, rfl, .inr ⟨_, _, rfl⟩⟩
      · simp only [X86Arg.run]
        rw [T, R]
        repeat' split
        all_goals first | exact ⟨none, _, rfl, .inl rfl⟩ | exact ⟨_, _, rfl, .inr ⟨_, _, rfl⟩⟩
      · simp only [X86Arg.run]
        rw [T, R]
        repeat' split
        all_goals first | exact ⟨none, _, rfl, .inl rfl⟩ | exact ⟨_, _, rfl, .inr ⟨_, _, rfl⟩⟩
      · simp only [X86Arg.run]
        rw [T]
        split
        · exact ⟨_, _, rfl, .inr ⟨_, _, rfl⟩⟩
        · exact ⟨none, _, rfl, .inl rfl⟩
    cases a <;> first | (cases hs; done) | skip
    · exact ⟨_, _, evqp_reg (b := []) h ht (by simp only [x86Size, if_true]; rfl), .inr ⟨_, _, rfl⟩⟩
    · exact ⟨_, _, gvqp_reg (b := []) h ht (by rw [if_neg (by decide)]), .inr ⟨_, _, rfl⟩⟩
    · exact rest h.is rfl (by simp)
    · exact rest h.is rfl (by simp)
    · exact rest h.is rfl (by simp)
    · exact rest h.is rfl (by simp)
    · exact absurd rfl hskip
    · exact absurd rfl hskip
  | @creg t h =>
    cases a <;> first | (cases hs; done) | exact absurd rfl hskip | skip
    simp only [X86Arg.run]
    rw [H.bind_run (token_run (show tokens.drop 1 = t :: us from ht) c), if_pos h]
    exact ⟨_, _, rfl, .inr ⟨_, _, rfl⟩⟩
  | num h => cases a <;> first | (cases hs; done) | exact absurd rfl hskip
  | @mem ts mod rm d hn hg =>
    cases a <;> first | (cases hs; done) | exact absurd rfl hskip | skip
    exact ⟨_, _, x86MemArg_run (.inl rfl) (vs := us) (by rw [ht]; simp) hn hg (b := []) rfl, .inr ⟨base, [], by simp⟩⟩

/-- The row is skipped for operands that look so. -/
def x86SkipRow : List X86Arg → X86Tok → Option X86Tok → Bool
  | [a], k, none => x86Skip a k
  | [a, b], k, some k' => x86Skip a k || (x86Soft a && x86Skip b k')
  | [a], k, some _ => x86Skip a k
  | [a, _], k, none => x86Skip a k
  | _, _, _ => false

/-- The first row that is not skipped. -/
def x86Pick : List (Nat × List X86Arg) → X86Tok → Option X86Tok → Option (Nat × List X86Arg)
  | [], _, _ => none
  | (b, args) :: rows, k, k' => if x86SkipRow args k k' then x86Pick rows k k' else if args = [] then none else some (b, args)

inductive X86Ops : X86Tok → Option X86Tok → List Str → Prop
  | one {k ts} : X86Op k ts → X86Ops k none ts
  | two {k k' ts us} : X86Op k ts → X86Op k' us → X86Ops k (some k') (ts ++ us)

theorem skipRow_run {args : List X86Arg} {k : X86Tok} {k' : Option X86Tok} {t : Str} {rest : List Str} {base : List Nat} {c : Ctx}
    (h : x86SkipRow args k k' = true) (ho : X86Ops k k' rest) : args ≠ [] ∧ x86Args (t :: rest) args base 1 {} [] c = (.ok none, []) := by
  have first : ∀ {a as ts us}, args = a :: as → rest = ts ++ us → X86Op k ts → x86Skip a k = true →
      args ≠ [] ∧ x86Args (t :: rest) args base 1 {} [] c = (.ok none, []) := by
    rintro a as ts us rfl rfl hk hs
    refine ⟨by simp, ?_⟩
    unfold x86Args
    rw [H.bind_run (hk.skip hs (show (t :: (ts ++ us)).drop 1 = ts ++ us from rfl))]
    rfl
  cases ho with
  | one hk =>
    match args, h with
    | [a], h => exact first rfl (List.append_nil _).symm hk h
    | [a, b], h => exact first rfl (List.append_nil _).symm hk h
  | @two k' ts us hk hk' =>
    match args, h with
    | [a], h => exact first rfl rfl hk h
    | [a, b], h =>
      simp only [x86SkipRow, Bool.or_eq_true, Bool.and_eq_true] at h
      rcases h with h | ⟨h1, h2⟩
      · exact first rfl rfl hk h
      refine ⟨by simp, ?_⟩
      obtain ⟨r, m', hr, h3⟩ := soft_run (base := base) (c := c) h1 hk (show (t :: (ts ++ us)).drop 1 = ts ++ us from rfl)
      unfold x86Args
      rw [H.bind_run hr]
      rcases h3 with rfl | ⟨base', b', rfl⟩
      · rfl
      · simp only
        unfold x86Args
        have ht : (t :: (ts ++ us)).drop (1 + ts.length) = us ++ [] := by
          rw [Nat.add_comm]; simp
        rw [H.bind_run (hk'.skip h2 ht)]
        rfl

theorem X86Op.ne {k : X86Tok} {ts : List Str} (h : X86Op k ts) : 0 < ts.length := by
  obtain ⟨t, us, rfl, -⟩ := h.head
  simp

theorem X86Ops.ne {k : X86Tok} {k' : Option X86Tok} {ts : List Str} (h : X86Ops k k' ts) : 0 < ts.length := by
  cases h with
  | one h => exact h.ne
  | two h h' => have := h.ne; simp; omega

theorem x86Pack_ok (base : List Nat) : x86Pack base = .ok (base.map fun n => BitVec.ofNat 8 n) := by
  unfold x86Pack
  have := packByte_ok (base.map fun (n : Nat) => (n : Int))
  simp only [List.map_map] at this
  have e : (base.map fun (n : Nat) => some (n : Int)) = base.map (some ∘ fun (n : Nat) => (n : Int)) := rfl
  rw [e, this]
  congr 1

/-- The bytes of an opcode of the table. -/
def x86Split (b : Nat) : List Nat := if 0xFF < b then [b / 256, b % 256] else [b]

theorem pick_run {next : H (Option Bytes)} {k : X86Tok} {k' : Option X86Tok} {t : Str} {rest : List Str} {c : Ctx} {b : Nat} {args : List X86Arg} {base : List Nat}
    {full : Bytes} {rels : List Reloc} : ∀ {rows : List (Nat × List X86Arg)}, x86Pick rows k k' = some (b, args) → X86Ops k k' rest →
    x86Args (t :: rest) args (x86Split b) 1 {} [] c = (.ok (some (base, full)), rels) →
    x86Call next (t :: rest) rows c = (.ok (some ((base.map fun n => BitVec.ofNat 8 n) ++ full)), rels)
  | [], h, _, _ => by cases h
  | (b', args') :: rows, h, ho, hr => by
    unfold x86Pick at h
    have hlen : ¬ (t :: rest).length < 2 := by have := ho.ne; simp; omega
    by_cases hs : x86SkipRow args' k k' = true
    · rw [if_pos hs] at h
      obtain ⟨hne, hrun⟩ := skipRow_run (t := t) (base := x86Split b') (c := c) hs ho
      unfold x86Call
      rw [if_neg hne, if_neg hlen]
      unfold x86Split at hrun
      rw [H.bind_run hrun]
      exact pick_run h ho hr
    · rw [if_neg hs] at h
      by_cases hne : args' = []
      · rw [if_pos hne] at h; cases h
      · rw [if_neg hne] at h
        cases h
        unfold x86Call
        rw [if_neg hne, if_neg hlen]
        unfold x86Split at hr
        refine lift_bind hr ?_
        simp only
        rw [H.bind_run (show H.lift (x86Pack base) c = (.ok (base.map fun n => BitVec.ofNat 8 n), []) by rw [x86Pack_ok]; rfl)]
        rfl

end Necro
