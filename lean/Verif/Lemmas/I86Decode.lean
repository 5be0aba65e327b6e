import Verif.Lemmas.I86Row
/-!
# Reading the code of 8086 operands
-/

namespace Necro
open Spec

def I86Arg.kind : I86Arg → I86Kind
  | .eb => .eb | .ev => .ev | .gb => .gb | .gv => .gv | .sw => .sw | .m => .m | .mp => .mp
  | .r8 n => .r8 n | .r16 n => .r16 n | .seg n => .seg n
  | .ib => .ib | .iv => .iv | .jb => .jb | .jv => .jv | .ob => .ob | .ov => .ov | .ap => .ap
  | .i0 => .ib | .three => .const 3

/-- The numbers of the slots stand for values. -/
inductive I86Meets (value : M68Use → Nat → Str → Int → Prop) : List M68Slot → List Int → Prop
  | nil : I86Meets value [] []
  | cons {p ps v vs x} : value p.1 p.2.1.bitsSize p.2.1.label x → v % 2 ^ p.2.1.bitsSize = x % 2 ^ p.2.1.bitsSize → I86Meets value ps vs →
      I86Meets value (p :: ps) (v :: vs)

theorem meets_split {value : M68Use → Nat → Str → Int → Prop} : ∀ {s s' : List M68Slot} {v v' : List Int}, s.length = v.length →
    I86Meets value (s ++ s') (v ++ v') → I86Meets value s v ∧ I86Meets value s' v'
  | [], s', [], v', _, h => ⟨.nil, h⟩
  | p :: s, s', x :: v, v', hl, h => by
    cases h with
    | cons h1 h2 h3 =>
      obtain ⟨h4, h5⟩ := meets_split (by simpa using hl) h3
      exact ⟨.cons h1 h2 h4, h5⟩

theorem build_lengths {m : I86Modrm} {s : List M68Slot} {v : List Int} {b : Bytes} (h : I86Build m s v b) : s.length = v.length := by
  cases h <;> rfl

theorem lateBuild_lengths {m : I86Modrm} {s : List M68Slot} {v : List Int} {b : Bytes} (h : I86LateBuild m s v b) : s.length = v.length := by
  unfold I86LateBuild at h
  split at h
  · obtain ⟨rfl, rfl, -⟩ := h; rfl
  · exact build_lengths h

theorem I86Enc.lengths {c : Ctx} {m m' : I86Modrm} {late : Bool} {a : I86Arg} {ts : List Str} {s : List M68Slot} {v : List Int} {b : Bytes}
    (h : I86Enc c m late a ts s v b m') : s.length = v.length := by
  cases h with
  | regLate _ _ _ hb => exact build_lengths hb
  | rm _ _ hb => exact lateBuild_lengths hb
  | mem _ _ _ hb => exact lateBuild_lengths hb
  | mp _ hb => simp [build_lengths hb]
  | _ => rfl

theorem word_le (v : Int) (bs : Bytes) : ∃ x y, leBytes 2 v ++ bs = x :: y :: bs ∧ ((word86 x y : Nat) : Int) = v % 65536 := by
  refine ⟨BitVec.ofInt 8 v, BitVec.ofInt 8 (v / 256), rfl, ?_⟩
  unfold word86
  have h1 := byte_toNat v
  have h2 := byte_toNat (v / 256)
  omega

theorem mod_cast_eq {n : Nat} {v x : Int} {k : Int} (h : (n : Int) = v % k) (h' : v % k = x % k) : (n : Int) = x % k := h.trans h'

/-- The operands that do not use the ModR/M byte. -/
theorem plain_decode {value : M68Use → Nat → Str → Int → Prop} {c : Ctx} {m m' : I86Modrm} {late : Bool} {a : I86Arg} {ts : List Str} {s : List M68Slot} {v : List Int}
    {b : Bytes} (ha : a.kind.modrm = false) (h : I86Enc c m late a ts s v b m') (hv : I86Meets value s v)
    (hten : a = .i0 → b ≠ []) (hnum : ∀ t x, parseInteger c.sy c.labels t 8 false = .ok (some x) → I86Free t ∧ ∃ y, value .data 8 t y ∧ x % 256 = y % 256)
    (hthree : I86Free ['3'] ∧ value .data 8 ['3'] 3)
    (hob : a = .ob → ∀ t x, ts = [['['], t, [']']] → value .data 8 t x → value .data 16 t x ∧ 0 ≤ x ∧ x < 256) (mr : Option (Nat × I86Rm)) :
    m' = m ∧ ∃ o, I86Text value o ts ∧ ∀ bs, operand86 mr a.kind (b ++ bs) = some (o, bs) := by
  cases h with
  | reg hn _ _ | regLate hn _ _ _ =>
    simp only [List.mem_cons, Prod.mk.injEq, List.not_mem_nil, or_false] at hn
    rcases hn with ⟨rfl, -⟩ | ⟨rfl, -⟩ | ⟨rfl, -⟩ <;> cases ha
  | rm hn _ _ =>
    simp only [List.mem_cons, Prod.mk.injEq, List.not_mem_nil, or_false] at hn
    rcases hn with ⟨rfl, -⟩ | ⟨rfl, -⟩ <;> cases ha
  | mem hn _ _ _ =>
    simp only [List.mem_cons, List.not_mem_nil, or_false] at hn
    rcases hn with rfl | rfl | rfl <;> cases ha
  | mp _ _ => cases ha
  | r8 hn => exact ⟨rfl, _, .r8 hn, fun bs => rfl⟩
  | r16 hn => exact ⟨rfl, _, .r16 hn, fun bs => rfl⟩
  | seg hn => exact ⟨rfl, _, .seg hn, fun bs => rfl⟩
  | @ib t v hf =>
    cases hv with
    | cons h1 h2 _ =>
      have e := byte_toNat v
      exact ⟨rfl, .imm8 (BitVec.ofInt 8 v).toNat, .imm8 hf h1 (mod_cast_eq e h2), fun bs => rfl⟩
  | @iv t v hf =>
    cases hv with
    | cons h1 h2 _ =>
      refine ⟨rfl, .imm16 (v % 65536).toNat, .imm16 hf h1 (mod_cast_eq (v := v) (by omega) h2), fun bs => ?_⟩
      obtain ⟨x, y, e1, e2⟩ := word_le v bs
      rw [e1]
      simp only [I86Arg.kind, operand86, ← e2, Int.toNat_natCast]
  | @jb t v hf hc =>
    cases hv with
    | cons h1 h2 _ =>
      refine ⟨rfl, .rel (BitVec.ofInt 8 v).toInt, .rel8 hf hc h1 ?_ ?_ ?_, fun bs => rfl⟩
      · have := BitVec.le_toInt (BitVec.ofInt 8 v); simpa using this
      · have := BitVec.toInt_lt (x := BitVec.ofInt 8 v); simpa using this
      · exact (byte_toInt v).trans h2
  | @jv t v hf hc =>
    cases hv with
    | cons h1 h2 _ =>
      have h2 : v % 65536 = _ := h2
      refine ⟨rfl, .rel (toSigned 16 (v % 65536).toNat), .rel16 hf hc h1 ?_ ?_ ?_, fun bs => ?_⟩
      · unfold toSigned; split <;> omega
      · unfold toSigned; split <;> omega
      · have : toSigned 16 (v % 65536).toNat % 65536 = v % 65536 := by unfold toSigned; split <;> omega
        exact this.trans h2
      · obtain ⟨x, y, e1, e2⟩ := word_le v bs
        rw [e1]
        simp only [I86Arg.kind, operand86, ← e2, Int.toNat_natCast]
  | @ob t v hf =>
    cases hv with
    | @cons _ _ _ _ x h1 h2 _ =>
      obtain ⟨h3, h4, h5⟩ := hob rfl t x rfl h1
      have h2 : v % 256 = x % 256 := h2
      have e := byte_toNat v
      refine ⟨rfl, .addr false (BitVec.ofInt 8 v).toNat, .addr hf h3 ?_, fun bs => ?_⟩
      · show _ = x % 65536
        omega
      · simp [I86Arg.kind, operand86, word86]
  | @ov t v hf =>
    cases hv with
    | cons h1 h2 _ =>
      refine ⟨rfl, .addr true (v % 65536).toNat, .addr hf h1 (mod_cast_eq (v := v) (by omega) h2), fun bs => ?_⟩
      obtain ⟨x, y, e1, e2⟩ := word_le v bs
      rw [e1]
      simp only [I86Arg.kind, operand86, ← e2, Int.toNat_natCast]
  | @ap t u v w h1 h2 =>
    cases hv with
    | cons h3 h4 hv =>
      cases hv with
      | cons h5 h6 _ =>
        refine ⟨rfl, .far (w % 65536).toNat (v % 65536).toNat, .far h1 h2 h5 (mod_cast_eq (v := w) (by omega) h6) h3 (mod_cast_eq (v := v) (by omega) h4), fun bs => ?_⟩
        obtain ⟨x, y, e1, e2⟩ := word_le w bs
        obtain ⟨x', y', e3, e4⟩ := word_le v (x :: y :: bs)
        rw [List.append_assoc, e1, e3]
        simp only [I86Arg.kind, operand86, ← e2, ← e4, Int.toNat_natCast]
  | three => exact ⟨rfl, .imm8 3, .imm8 hthree.1 hthree.2 (by decide), fun bs => rfl⟩
  | ten _ => exact absurd rfl (hten rfl)
  | @i0 t v hp _ =>
    obtain ⟨hf, y, hy, e⟩ := hnum t v hp
    have e' := byte_toNat v
    exact ⟨rfl, .imm8 (BitVec.ofInt 8 v).toNat, .imm8 hf hy (mod_cast_eq e' e), fun bs => rfl⟩

/-! ## the ModR/M byte -/

/-- The texts of a register or memory operand, with the fields of the byte. -/
inductive I86RmText (a : I86Arg) : List Str → Nat → Nat → Option Str → Prop
  | reg {names n t} : (a, names) ∈ [(I86Arg.eb, i86Names8), (.ev, i86Names16)] → I86Name names n t → I86RmText a [t] 3 n none
  | mem {ts mod rm d} : a ∈ [I86Arg.eb, .ev, .m] → I86MemForm ts mod rm d → I86RmText a (['['] :: ts ++ [[']']]) mod rm d

theorem name_lt {names : List String} {n : Nat} {t : Str} (h : I86Name names n t) : n < names.length := by
  obtain ⟨s, hs, -⟩ := h
  exact (List.getElem?_eq_some_iff.1 hs).1

theorem rmText_lt {a : I86Arg} {ts : List Str} {mod rm : Nat} {d : Option Str} (h : I86RmText a ts mod rm d) : mod < 4 ∧ rm < 8 := by
  cases h with
  | reg hn hname =>
    have := name_lt hname
    simp only [List.mem_cons, Prod.mk.injEq, List.not_mem_nil, or_false] at hn
    rcases hn with ⟨-, rfl⟩ | ⟨-, rfl⟩ <;> exact ⟨by decide, this⟩
  | mem _ hf =>
    cases hf with
    | plain hb => exact ⟨by decide, base_lt hb⟩
    | disp hb _ => exact ⟨by decide, base_lt hb⟩

theorem enc_rm {c : Ctx} {m m' : I86Modrm} {late : Bool} {a : I86Arg} {ts : List Str} {s : List M68Slot} {v : List Int} {b : Bytes}
    (ha : a ∈ [I86Arg.eb, .ev, .m]) (hd : m.disp = none) (h : I86Enc c m late a ts s v b m') :
    ∃ mod rm d, m' = ⟨some mod, m.reg, some rm, d⟩ ∧ I86RmText a ts mod rm d ∧ I86LateBuild m' s v b := by
  have ha' := ha
  simp only [List.mem_cons, List.not_mem_nil, or_false] at ha'
  cases h with
  | rm hn hname hb => exact ⟨3, _, none, by rw [hd], .reg hn hname, hb⟩
  | mem hn hno hg hb => exact ⟨_, _, _, rfl, .mem hn (getMod_form hg).1, hb⟩
  | reg hn _ _ | regLate hn _ _ _ =>
    simp only [List.mem_cons, Prod.mk.injEq, List.not_mem_nil, or_false] at hn
    rcases hn with ⟨rfl, -⟩ | ⟨rfl, -⟩ | ⟨rfl, -⟩ <;> simp at ha'
  | _ => simp at ha'

theorem enc_reg {c : Ctx} {m m' : I86Modrm} {late : Bool} {a : I86Arg} {ts : List Str} {s : List M68Slot} {v : List Int} {b : Bytes}
    (ha : a ∈ [I86Arg.gb, .gv, .sw]) (h : I86Enc c m late a ts s v b m') :
    ∃ n t o, ts = [t] ∧ m' = { m with reg := some n } ∧ n < 8 ∧ (∀ value, I86Text value o ts) ∧ (∀ r bs, operand86 (some (n, r)) a.kind bs = some (o, bs)) ∧
      (late = false → s = [] ∧ v = [] ∧ b = []) ∧ (late = true → I86Build m' s v b) := by
  have ha' := ha
  simp only [List.mem_cons, List.not_mem_nil, or_false] at ha'
  have key : ∀ {names : List String} {n : Nat} {t : Str}, (a, names) ∈ [(I86Arg.gb, i86Names8), (.gv, i86Names16), (.sw, i86NamesSeg)] → I86Name names n t →
      n < 8 ∧ ∃ o, (∀ value, I86Text value o [t]) ∧ (∀ r bs, operand86 (some (n, r)) a.kind bs = some (o, bs)) := by
    intro names n t hn hname
    have hlt := name_lt hname
    simp only [List.mem_cons, Prod.mk.injEq, List.not_mem_nil, or_false] at hn
    rcases hn with ⟨rfl, rfl⟩ | ⟨rfl, rfl⟩ | ⟨rfl, rfl⟩
    · exact ⟨hlt, .r8 n, fun _ => .r8 hname, fun _ _ => rfl⟩
    · exact ⟨hlt, .r16 n, fun _ => .r16 hname, fun _ _ => rfl⟩
    · have hlt : n < 4 := hlt
      exact ⟨by omega, .seg n, fun _ => .seg hname, fun _ _ => by simp [I86Arg.kind, operand86, hlt]⟩
  cases h with
  | reg hn hname hl =>
    obtain ⟨h1, o, h2, h3⟩ := key hn hname
    exact ⟨_, _, o, rfl, rfl, h1, h2, h3, fun _ => ⟨rfl, rfl, rfl⟩, fun h => by rw [hl] at h; cases h⟩
  | regLate hn hname hl hb =>
    obtain ⟨h1, o, h2, h3⟩ := key hn hname
    exact ⟨_, _, o, rfl, rfl, h1, h2, h3, (fun h => by rw [hl] at h; cases h), fun _ => hb⟩
  | rm hn _ _ =>
    simp only [List.mem_cons, Prod.mk.injEq, List.not_mem_nil, or_false] at hn
    rcases hn with ⟨rfl, -⟩ | ⟨rfl, -⟩ <;> simp at ha'
  | mem hn _ _ _ =>
    simp only [List.mem_cons, List.not_mem_nil, or_false] at hn
    rcases hn with rfl | rfl | rfl <;> simp at ha'
  | _ => simp at ha'

theorem enc_mp {c : Ctx} {m m' : I86Modrm} {late : Bool} {ts : List Str} {s : List M68Slot} {v : List Int} {b : Bytes}
    (h : I86Enc c m late .mp ts s v b m') : ∃ x w s' v' b', I86NoReg x ∧ ts = [['['], x, [']']] ∧ s = s' ++ [wordSlot x] ∧ v = v' ++ [w] ∧
      b = b' ++ leBytes 2 w ∧ m' = { m with mod := some 0, rm := some 6 } ∧ I86Build m' s' v' b' := by
  generalize ha : I86Arg.mp = a at h
  cases h with
  | mp hx hb => exact ⟨_, _, _, _, _, hx, rfl, rfl, rfl, rfl, rfl, hb⟩
  | reg hn _ _ | regLate hn _ _ _ | rm hn _ _ | mem hn _ _ _ => subst ha; simp at hn
  | _ => cases ha

theorem modByte_parts {mod reg rm : Nat} (h1 : mod < 4) (h2 : reg < 8) (h3 : rm < 8) :
    (modByte mod reg rm).toNat / 64 = mod ∧ (modByte mod reg rm).toNat / 8 % 8 = reg ∧ (modByte mod reg rm).toNat % 8 = rm := by
  unfold modByte
  rw [BitVec.toNat_ofNat]
  omega

theorem rm_decode {value : M68Use → Nat → Str → Int → Prop} {a : I86Arg} {ts : List Str} {mod rm reg : Nat} {d : Option Str} {s : List M68Slot} {v : List Int} {b : Bytes}
    (hE : I86RmText a ts mod rm d) (hreg : reg < 8) (hb : I86Build ⟨some mod, some reg, some rm, d⟩ s v b) (hv : I86Meets value s v)
    (hbp : ¬ (mod = 0 ∧ rm = 6)) :
    ∃ r o, (∀ bs, modrm86 (b ++ bs) = some (reg, r, bs)) ∧ (∀ bs, operand86 (some (reg, r)) a.kind bs = some (o, bs)) ∧ I86Text value o ts ∧
      ∃ x tl, b = x :: tl ∧ x.toNat / 8 % 8 = reg := by
  obtain ⟨hm, hr⟩ := rmText_lt hE
  obtain ⟨p1, p2, p3⟩ := modByte_parts hm hreg hr
  cases hE with
  | reg hn hname =>
    cases hb with
    | plain e1 e2 e3 _ =>
      cases e1; cases e2; cases e3
      simp only [List.mem_cons, Prod.mk.injEq, List.not_mem_nil, or_false] at hn
      have hmr : ∀ bs, modrm86 ([modByte 3 reg rm] ++ bs) = some (reg, .reg rm, bs) := by
        intro bs
        simp only [List.cons_append, List.nil_append, modrm86, p1, p2, p3]
      rcases hn with ⟨rfl, rfl⟩ | ⟨rfl, rfl⟩
      · exact ⟨.reg rm, .r8 rm, hmr, fun _ => rfl, .r8 hname, _, _, rfl, p2⟩
      · exact ⟨.reg rm, .r16 rm, hmr, fun _ => rfl, .r16 hname, _, _, rfl, p2⟩
    | disp _ _ _ e => cases e
  | mem hn hf =>
    simp only [List.mem_cons, List.not_mem_nil, or_false] at hn
    cases hf with
    | plain hbase =>
      cases hb with
      | plain e1 e2 e3 _ =>
        cases e1; cases e2; cases e3
        have hmr : ∀ bs, modrm86 ([modByte 0 reg rm] ++ bs) = some (reg, .mem rm 0, bs) := by
          intro bs
          simp only [List.cons_append, List.nil_append, modrm86, p1, p2, p3]
          rw [if_neg (by omega)]
        rcases hn with rfl | rfl | rfl
        · exact ⟨.mem rm 0, .mem false rm 0, hmr, fun _ => rfl, .mem hbase, _, _, rfl, p2⟩
        · exact ⟨.mem rm 0, .mem true rm 0, hmr, fun _ => rfl, .mem hbase, _, _, rfl, p2⟩
        · exact ⟨.mem rm 0, .mem true rm 0, hmr, fun _ => rfl, .mem hbase, _, _, rfl, p2⟩
      | disp _ _ _ e => cases e
    | @disp _ us sg w hbase hs =>
      cases hb with
      | plain _ _ _ e => cases e
      | @disp mod' reg' rm' d' v e1 e2 e3 e4 =>
        cases e1; cases e2; cases e3; cases e4
        cases hv with
        | @cons _ _ _ _ x hval heq _ =>
          have heq : v % 65536 = x % 65536 := heq
          have hmr : ∀ bs, modrm86 ((modByte 2 reg rm :: leBytes 2 v) ++ bs) = some (reg, .mem rm (v % 65536).toNat, bs) := by
            intro bs
            obtain ⟨x, y, e1, e2⟩ := word_le v bs
            rw [List.cons_append, e1]
            simp only [modrm86, p1, p2, p3, ← e2, Int.toNat_natCast]
          have htext : ∀ w', I86Text value (.mem w' rm (v % 65536).toNat) (['['] :: (us ++ [sg, w]) ++ [[']']]) := by
            intro w'
            have hd : (((v % 65536).toNat : Nat) : Int) = x % 2 ^ 16 := by
              show _ = x % 65536
              omega
            rcases hs with rfl | rfl
            · have := I86Text.plus (value := value) (w := w') hbase (v := w) (x := x) (by simpa [dispSlot] using hval) hd
              simpa using this
            · have := I86Text.minus (value := value) (w := w') hbase (v := w) (x := x) (by simpa [dispSlot] using hval) hd
              simpa using this
          rcases hn with rfl | rfl | rfl
          · exact ⟨_, .mem false rm _, hmr, fun _ => rfl, htext _, _, _, rfl, p2⟩
          · exact ⟨_, .mem true rm _, hmr, fun _ => rfl, htext _, _, _, rfl, p2⟩
          · exact ⟨_, .mem true rm _, hmr, fun _ => rfl, htext _, _, _, rfl, p2⟩

/-! ## whole rows -/

/-- The ways the rows use the ModR/M byte. -/
inductive I86Shape : Nat → List I86Arg → Prop
  /-- not at all -/
  | plain {base args} : base ≤ 0xFF → (args.all fun a => !a.kind.modrm) = true → I86Shape base args
  | rmReg {base a g} : base ≤ 0xFF → a ∈ [I86Arg.eb, .ev, .m] → g ∈ [I86Arg.gb, .gv, .sw] → I86Shape base [a, g]
  | regRm {base a g} : base ≤ 0xFF → a ∈ [I86Arg.eb, .ev, .m] → g ∈ [I86Arg.gb, .gv, .sw] → I86Shape base [g, a]
  | pointer {base} : base ≤ 0xFF → I86Shape base [.gv, .mp]
  /-- with a fixed middle field -/
  | ext {base a} : 0xFF < base → base % 256 < 8 → base / 256 < 256 → a ∈ [I86Arg.eb, .ev] → I86Shape base [a]

def shapeOk (base : Nat) (args : List I86Arg) : Bool :=
  if base ≤ 0xFF then
    args.all (fun a => !a.kind.modrm) ||
    (match args with
     | [x, y] => (decide (x ∈ [I86Arg.eb, .ev, .m]) && decide (y ∈ [I86Arg.gb, .gv, .sw])) || (decide (y ∈ [I86Arg.eb, .ev, .m]) && decide (x ∈ [I86Arg.gb, .gv, .sw])) ||
        (decide (x = .gv) && decide (y = .mp))
     | _ => false)
  else
    decide (base % 256 < 8) && decide (base / 256 < 256) &&
    (match args with
     | [x] => decide (x ∈ [I86Arg.eb, .ev])
     | _ => false)

theorem shape_of {base : Nat} {args : List I86Arg} (h : shapeOk base args = true) : I86Shape base args := by
  unfold shapeOk at h
  by_cases hb : base ≤ 0xFF
  · rw [if_pos hb, Bool.or_eq_true] at h
    rcases h with h | h
    · exact .plain hb h
    · match args, h with
      | [x, y], h =>
        simp only [Bool.or_eq_true, Bool.and_eq_true, decide_eq_true_eq] at h
        rcases h with (⟨h1, h2⟩ | ⟨h1, h2⟩) | ⟨rfl, rfl⟩
        · exact .rmReg hb h1 h2
        · exact .regRm hb h1 h2
        · exact .pointer hb
  · rw [if_neg hb] at h
    simp only [Bool.and_eq_true, decide_eq_true_eq] at h
    obtain ⟨⟨h1, h2⟩, h3⟩ := h
    match args, h3 with
    | [x], h3 => exact .ext (by omega) h1 h2 (of_decide_eq_true h3)

/-- The rows whose code is not the instruction: `POP` and `MOV` to memory. -/
def oddRows : List Nat := [0x8F, 0xC6, 0xC7]

theorem table_shapes : ∀ r ∈ i86Table, r.1 ∈ oddRows ∨ shapeOk r.1 r.2.2 = true := by decide +kernel

theorem table_args : ∀ r ∈ i86Table, argsOk r.2.2 = true ∧ (r.1 % 256 < 8 ∨ r.1 ≤ 0xFF) := by decide +kernel

def isShift (name : String) : Bool := name == "SHL" || name == "SHR"

theorem table_plain : ∀ r ∈ i86Table, r.1 ≤ 0xFF → r.1 ∉ oddRows → ¬ (r.2.2 = [] ∧ r.1 ∈ [0xD4, 0xD5]) → ∀ g < 8, shape86 r.1 g = some (r.2.1, r.2.2.map I86Arg.kind) := by decide +kernel

theorem table_ext : ∀ r ∈ i86Table, 0xFF < r.1 →
    shape86 (r.1 / 256) (r.1 % 256) = some (r.2.1, r.2.2.map I86Arg.kind ++ if isShift r.2.1 then [.const 1] else []) := by decide +kernel

theorem operands_cons {mr : Option (Nat × I86Rm)} {k : I86Kind} {ks : List I86Kind} {bs bs' bs'' : Bytes} {o : I86Opnd} {os : List I86Opnd}
    (h : operand86 mr k bs = some (o, bs')) (h' : operands86 mr ks bs' = some (os, bs'')) : operands86 mr (k :: ks) bs = some (o :: os, bs'') := by
  simp [operands86, h, h']

theorem mid_lt (b : Byte) : b.toNat / 8 % 8 < 8 := Nat.mod_lt _ (by decide)

theorem decode_plain {op : Nat} {name : String} {kinds : List I86Kind} {bs : Bytes} {os : List I86Opnd} (hop : op < 256)
    (hs : ∀ g < 8, shape86 op g = some (name, kinds)) (hk : kinds.any I86Kind.modrm = false) (h : operands86 none kinds bs = some (os, [])) :
    disasm86 (BitVec.ofNat 8 op :: bs) = some ⟨name, os⟩ := by
  have hn : (BitVec.ofNat 8 op).toNat = op := by rw [BitVec.toNat_ofNat]; omega
  unfold disasm86 decode86
  cases bs with
  | nil => simp [-List.any_eq_true, hn, hs 0 (by decide), hk, h]
  | cons b bs => simp [-List.any_eq_true, hn, hs _ (mid_lt b), hk, h]

theorem decode_modrm {op g : Nat} {name : String} {kinds : List I86Kind} {b : Byte} {bs bs' : Bytes} {r : I86Rm} {os : List I86Opnd} (hop : op < 256)
    (hg : b.toNat / 8 % 8 = g) (hs : shape86 op g = some (name, kinds)) (hk : kinds.any I86Kind.modrm = true) (hm : modrm86 (b :: bs) = some (g, r, bs'))
    (h : operands86 (some (g, r)) kinds bs' = some (os, [])) : disasm86 (BitVec.ofNat 8 op :: b :: bs) = some ⟨name, os⟩ := by
  have hn : (BitVec.ofNat 8 op).toNat = op := by rw [BitVec.toNat_ofNat]; omega
  unfold disasm86 decode86
  simp [-List.any_eq_true, hn, hg, hs, hk, hm, h]

theorem kinds_plain {args : List I86Arg} (h : (args.all fun a => !a.kind.modrm) = true) : (args.map I86Arg.kind).any I86Kind.modrm = false := by
  rw [List.any_eq_false]
  intro k hk
  obtain ⟨a, ha, rfl⟩ := List.mem_map.1 hk
  have := List.all_eq_true.1 h a ha
  simpa using this

/-- What a caller has to know about the numbers. -/
structure I86Values (c : Ctx) (value : M68Use → Nat → Str → Int → Prop) (args : List I86Arg) (ts : List Str) : Prop where
  num : ∀ t x, parseInteger c.sy c.labels t 8 false = .ok (some x) → I86Free t ∧ ∃ y, value .data 8 t y ∧ x % 256 = y % 256
  three : I86Free ['3'] ∧ value .data 8 ['3'] 3
  ob : I86Arg.ob ∈ args → ∀ pre post t x, ts = pre ++ [['['], t, [']']] ++ post → value .data 8 t x → value .data 16 t x ∧ 0 ≤ x ∧ x < 256
  bp : ∀ pre post t, ts = pre ++ [['['], t, [']']] ++ post → ¬ eqNoCase t "BP".toList

theorem plain_row {value : M68Use → Nat → Str → Int → Prop} {c : Ctx} {tokens : List Str} {all : List I86Arg} (hV : I86Values c value all tokens) (mr : Option (Nat × I86Rm)) :
    ∀ {args : List I86Arg} {m : I86Modrm} {late : Bool} {pre ts post : List Str} {s : List M68Slot} {v : List Int} {b : Bytes},
    (args.all fun a => !a.kind.modrm) = true → tokens = pre ++ ts ++ post → I86Encs c m late args ts s v b → I86Meets value s v → (args = [.i0] → b ≠ []) →
    (I86Arg.i0 ∈ args → args = [.i0]) → (∀ a ∈ args, a ∈ all) →
    ∃ os, I86Texts value os ts ∧ operands86 mr (args.map I86Arg.kind) b = some (os, [])
  | [], _, _, _, _, _, _, _, _, _, _, h, _, _, _, _ => by
    cases h
    exact ⟨[], .nil, rfl⟩
  | a :: as, m, late, pre, _, post, _, _, _, hk, ht, h, hv, hi, hi', hall => by
    cases h with
    | @cons _ _ _ _ ts us s s' v v' b b' m' h1 h2 =>
      simp only [List.all_cons, Bool.and_eq_true, Bool.not_eq_true'] at hk
      obtain ⟨hv1, hv2⟩ := meets_split h1.lengths hv
      have hno : I86Arg.i0 ∉ as := by
        intro hmem
        have := hi' (List.mem_cons_of_mem _ hmem)
        simp only [List.cons.injEq] at this
        rw [this.2] at hmem
        cases hmem
      have hten : a = .i0 → b ≠ [] := by
        rintro rfl
        have e := hi' (List.mem_cons_self ..)
        have := hi e
        simp only [List.cons.injEq, true_and] at e
        subst e
        cases h2
        simpa using this
      obtain ⟨rfl, o, ho, hd⟩ := plain_decode hk.1 h1 hv1 hten hV.num hV.three
        (fun e' t x e hx => hV.ob (e' ▸ hall a (List.mem_cons_self ..)) pre (us ++ post) t x (by rw [ht, e]; simp) hx) mr
      obtain ⟨os, hos, hds⟩ := plain_row hV mr (pre := pre ++ ts) (post := post) hk.2 (by rw [ht]; simp) h2 hv2 (fun e => absurd (by rw [e]; simp) hno) (fun h => absurd h hno)
        (fun x hx => hall x (List.mem_cons_of_mem _ hx))
      exact ⟨o :: os, .cons ho hos, operands_cons (hd b') hds⟩

theorem base_six {ts : List Str} (h : I86BaseText 6 ts) : ∃ t, ts = [t] ∧ eqNoCase t "BP".toList := by
  generalize hb : 6 = b at h
  cases h with
  | two hm _ _ =>
    simp only [List.mem_cons, Prod.mk.injEq, List.not_mem_nil, or_false] at hm
    omega
  | one hm hx =>
    simp only [List.mem_cons, Prod.mk.injEq, List.not_mem_nil, or_false] at hm
    rcases hm with ⟨h, -⟩ | ⟨h, -⟩ | ⟨-, rfl⟩ | ⟨h, -⟩
    · omega
    · omega
    · exact ⟨_, rfl, hx⟩
    · omega

theorem not_bp {value : M68Use → Nat → Str → Int → Prop} {c : Ctx} {tokens pre ts post : List Str} {args : List I86Arg} (hV : I86Values c value args tokens)
    (ht : tokens = pre ++ ts ++ post) {a : I86Arg} {mod rm : Nat} {d : Option Str} (h : I86RmText a ts mod rm d) : ¬ (mod = 0 ∧ rm = 6) := by
  rintro ⟨rfl, rfl⟩
  cases h with
  | mem _ hf =>
    cases hf with
    | plain hb =>
      obtain ⟨t, rfl, hbp⟩ := base_six hb
      exact hV.bp pre post t (by rw [ht]; simp) hbp

/-- A row other than the odd ones gives the code of the instruction written. -/
theorem row_decodes {value : M68Use → Nat → Str → Int → Prop} {c : Ctx} {r : Nat × String × List I86Arg} (hr : r ∈ i86Table) {tokens ts us : List Str}
    {s : List M68Slot} {v : List Int} {b : Bytes} (ht : tokens = ts ++ us) (hV : I86Values c value r.2.2 tokens) (hrow : r.1 ∉ oddRows)
    (hnil : ¬ (r.2.2 = [] ∧ r.1 ∈ [0xD4, 0xD5])) (hshift : isShift r.2.1 = true → ∃ t, us = [t] ∧ I86Free t ∧ value .data 8 t 1)
    (h : I86Encs c (rowModrm r.1) false r.2.2 ts s v b) (hv : I86Meets value s v) (hten : r.2.2 = [.i0] → b ≠ []) :
    ∃ used extra os, tokens = used ++ extra ∧ I86Texts value os used ∧ disasm86 (BitVec.ofNat 8 (rowOp r.1) :: b) = some ⟨r.2.1, os⟩ := by
  have hshape := shape_of ((table_shapes r hr).resolve_left hrow)
  have hargs := (table_args r hr).1
  obtain ⟨base, name, args⟩ := r
  simp only at *
  simp only [argsOk, Bool.and_eq_true, Bool.or_eq_true, decide_eq_true_eq] at hargs
  have hi' : I86Arg.i0 ∈ args → args = [.i0] := fun hm => hargs.2.resolve_left (fun h => h hm)
  cases hshape with
  | plain hb hk =>
    have hs := table_plain _ hr hb hrow hnil
    obtain ⟨os, hos, hd⟩ := plain_row hV none (pre := []) (post := us) hk (by simpa using ht) h hv hten hi' (fun a ha => ha)
    refine ⟨ts, us, os, ht, hos, ?_⟩
    unfold rowOp
    rw [if_neg (by omega)]
    exact decode_plain (by omega) hs (kinds_plain hk) hd
  | @rmReg a g hb ha hg =>
    have hs := table_plain _ hr hb hrow hnil
    unfold rowModrm at h
    rw [if_neg (by omega)] at h
    cases h with
    | @cons _ _ _ _ ts1 _ s1 _ v1 _ b1 _ m1 h1 h2 =>
    cases h2 with
    | @cons _ _ _ _ ts2 _ s2 _ v2 _ b2 _ m2 h2 h3 =>
    cases h3
    obtain ⟨mod, rm, d, rfl, hE, hlate⟩ := enc_rm ha rfl h1
    simp only [I86LateBuild, if_true] at hlate
    obtain ⟨rfl, rfl, rfl⟩ := hlate
    obtain ⟨n, t, o2, rfl, rfl, hn, htext, hop, -, hbuild⟩ := enc_reg hg h2
    have hbuild := hbuild rfl
    simp only [List.nil_append, List.append_nil] at hv ht ⊢
    obtain ⟨rr, o, h4, h5, h6, x, tl, rfl, h7⟩ := rm_decode hE hn hbuild hv (not_bp hV (pre := []) (post := [t] ++ us) (by rw [ht]; simp) hE)
    refine ⟨ts1 ++ [t], us, [o, o2], ht, ?_, ?_⟩
    · have := I86Texts.cons h6 (.cons (htext value) .nil)
      simpa using this
    · unfold rowOp
      rw [if_neg (by omega)]
      have h4 := h4 []
      rw [List.append_nil] at h4
      refine decode_modrm (by omega) h7 (hs _ hn) ?_ h4 (operands_cons (h5 _) (operands_cons (hop _ _) rfl))
      simp only [List.mem_cons, List.not_mem_nil, or_false] at ha
      rcases ha with rfl | rfl | rfl <;> rfl
  | @regRm a g hb ha hg =>
    have hs := table_plain _ hr hb hrow hnil
    unfold rowModrm at h
    rw [if_neg (by omega)] at h
    cases h with
    | @cons _ _ _ _ ts1 _ s1 _ v1 _ b1 _ m1 h1 h2 =>
    cases h2 with
    | @cons _ _ _ _ ts2 _ s2 _ v2 _ b2 _ m2 h2 h3 =>
    cases h3
    obtain ⟨n, t, o1, rfl, rfl, hn, htext, hop, hnone, -⟩ := enc_reg hg h1
    obtain ⟨rfl, rfl, rfl⟩ := hnone rfl
    obtain ⟨mod, rm, d, rfl, hE, hlate⟩ := enc_rm ha rfl h2
    simp only [I86LateBuild, reduceCtorEq, if_false] at hlate
    simp only [List.nil_append, List.append_nil] at hv ht ⊢
    obtain ⟨rr, o, h4, h5, h6, x, tl, rfl, h7⟩ := rm_decode hE hn hlate hv (not_bp hV (pre := [t]) (post := us) ht hE)
    refine ⟨[t] ++ ts2, us, [o1, o], ht, ?_, ?_⟩
    · have := I86Texts.cons (htext value) (.cons h6 .nil)
      simpa using this
    · unfold rowOp
      rw [if_neg (by omega)]
      have h4 := h4 []
      rw [List.append_nil] at h4
      refine decode_modrm (by omega) h7 (hs _ hn) ?_ h4 (operands_cons (hop _ _) (operands_cons (h5 _) rfl))
      simp only [List.mem_cons, List.not_mem_nil, or_false] at hg
      rcases hg with rfl | rfl | rfl <;> rfl
  | pointer hb =>
    have hs := table_plain _ hr hb hrow hnil
    unfold rowModrm at h
    rw [if_neg (by omega)] at h
    cases h with
    | @cons _ _ _ _ ts1 _ s1 _ v1 _ b1 _ m1 h1 h2 =>
    cases h2 with
    | @cons _ _ _ _ ts2 _ s2 _ v2 _ b2 _ m2 h2 h3 =>
    cases h3
    obtain ⟨n, t, o1, rfl, rfl, hn, htext, hop, hnone, -⟩ := enc_reg (by simp) h1
    obtain ⟨rfl, rfl, rfl⟩ := hnone rfl
    obtain ⟨x, w, s3, v3, b3, hx, rfl, rfl, rfl, rfl, rfl, hbuild⟩ := enc_mp h2
    cases hbuild with
    | disp _ _ _ e => cases e
    | plain e1 e2 e3 _ =>
    cases e1; cases e2; cases e3
    simp only [List.nil_append, List.append_nil] at hv ht ⊢
    cases hv with
    | @cons _ _ _ _ y hy heq _ =>
    have heq : w % 65536 = y % 65536 := heq
    obtain ⟨p1, p2, p3⟩ := modByte_parts (mod := 0) (reg := n) (rm := 6) (by decide) hn (by decide)
    obtain ⟨u1, u2, e1, e2⟩ := word_le w []
    rw [List.append_nil] at e1
    refine ⟨[t] ++ [['['], x, [']']], us, [o1, .addr true (w % 65536).toNat], ht, ?_, ?_⟩
    · have := I86Texts.cons (htext value) (.cons (I86Text.addr (value := value) (w := true) (a := (w % 65536).toNat) hx hy (by
        show _ = y % 65536
        omega)) .nil)
      simpa using this
    · unfold rowOp
      rw [if_neg (by omega)]
      have hm : modrm86 (modByte 0 n 6 :: leBytes 2 w) = some (n, .addr (w % 65536).toNat, []) := by
        rw [e1]
        simp only [modrm86, p1, p2, p3, if_true, ← e2, Int.toNat_natCast]
      exact decode_modrm (by omega) p2 (hs _ hn) rfl hm (operands_cons (hop _ _) (operands_cons (k := .mp) rfl rfl))
  | @ext a h1 h2 h3 ha =>
    have hs := table_ext _ hr h1
    unfold rowModrm at h
    rw [if_pos h1] at h
    cases h with
    | @cons _ _ _ _ ts1 _ s1 _ v1 _ b1 _ m1 h4 h5 =>
    cases h5
    have ha' : a ∈ [I86Arg.eb, .ev, .m] := by
      simp only [List.mem_cons, List.not_mem_nil, or_false] at ha ⊢
      rcases ha with rfl | rfl <;> simp
    obtain ⟨mod, rm, d, rfl, hE, hlate⟩ := enc_rm ha' rfl h4
    simp only [I86LateBuild, reduceCtorEq, if_false] at hlate
    simp only [List.append_nil] at hv ht ⊢
    obtain ⟨rr, o, h6, h7, h8, x, tl, rfl, h9⟩ := rm_decode hE h2 hlate hv (not_bp hV (pre := []) (post := us) (by rw [ht]; simp) hE)
    have h6 := h6 []
    rw [List.append_nil] at h6
    unfold rowOp
    rw [if_pos h1]
    by_cases hsh : isShift name = true
    · rw [if_pos hsh] at hs
      obtain ⟨t, rfl, hf, h1'⟩ := hshift hsh
      refine ⟨ts1 ++ [t], [], [o, .imm8 1], by rw [ht]; simp, ?_, ?_⟩
      · have := I86Texts.cons h8 (.cons (.imm8 (n := 1) hf h1' (by decide)) .nil)
        simpa using this
      · refine decode_modrm h3 h9 hs ?_ h6 (operands_cons (h7 _) (operands_cons (k := .const 1) rfl rfl))
        simp only [List.mem_cons, List.not_mem_nil, or_false] at ha
        rcases ha with rfl | rfl <;> rfl
    · rw [if_neg hsh, List.append_nil] at hs
      refine ⟨ts1, us, [o], ht, ?_, ?_⟩
      · have := I86Texts.cons h8 .nil
        simpa using this
      · refine decode_modrm h3 h9 hs ?_ h6 (operands_cons (h7 _) rfl)
        simp only [List.mem_cons, List.not_mem_nil, or_false] at ha
        rcases ha with rfl | rfl <;> rfl

end Necro
