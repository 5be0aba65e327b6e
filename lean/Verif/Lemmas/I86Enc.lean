import Verif.Lemmas.I86Took
/-!
# The code of the operands of an 8086 instruction, by the numbers in it
-/

namespace Necro
open Spec

/-- The dictionary holds numbers that fit the fields of the byte. -/
structure I86Modrm.Ok (m : I86Modrm) : Prop where
  mod : ∀ n, m.mod = some n → n < 4
  reg : ∀ n, m.reg = some n → n < 8
  rm : ∀ n, m.rm = some n → n < 8

def modByte (mod reg rm : Nat) : Byte := BitVec.ofNat 8 (mod * 64 + reg * 8 + rm)

def dispSlot (d : Str) : M68Slot := (.disp, { label := d.dropWhile (· == '+'), size := 2, bitsSize := 16, offset := 1 }, true)
def byteSlot (t : Str) : M68Slot := (.data, { label := t, size := 1, bitsSize := 8, offset := 1 }, false)
def wordSlot (t : Str) : M68Slot := (.data, { label := t, size := 2, bitsSize := 16, offset := 1 }, false)
def segSlot (t : Str) : M68Slot := (.data, { label := t, size := 2, bitsSize := 16, offset := 3 }, false)
def nearSlot (pc : Int) (t : Str) : M68Slot := (.pc, { label := t, size := 1, bitsSize := 8, offset := 1, relative := pc + 2 }, false)
def farSlot (pc : Int) (t : Str) : M68Slot := (.pc, { label := t, size := 2, bitsSize := 16, offset := 1, relative := pc + 3 }, false)

/-- The byte and the displacement of an operand. -/
inductive I86Build (m : I86Modrm) : List M68Slot → List Int → Bytes → Prop
  | plain {mod reg rm} : m.mod = some mod → m.reg = some reg → m.rm = some rm → m.disp = none → I86Build m [] [] [modByte mod reg rm]
  | disp {mod reg rm d v} : m.mod = some mod → m.reg = some reg → m.rm = some rm → m.disp = some d →
      I86Build m [dispSlot d] [v] (modByte mod reg rm :: leBytes 2 v)

/-- The same if the middle field is known, else nothing. -/
def I86LateBuild (m : I86Modrm) (slots : List M68Slot) (vs : List Int) (b : Bytes) : Prop :=
  if m.reg = none then slots = [] ∧ vs = [] ∧ b = [] else I86Build m slots vs b

/-- The tokens, the numbers to be read from them, their values, the bytes and the new dictionary. -/
inductive I86Enc (c : Ctx) (m : I86Modrm) (late : Bool) : I86Arg → List Str → List M68Slot → List Int → Bytes → I86Modrm → Prop
  | reg {a names n t} : (a, names) ∈ [(.gb, i86Names8), (.gv, i86Names16), (.sw, i86NamesSeg)] → I86Name names n t → late = false →
      I86Enc c m late a [t] [] [] [] { m with reg := some n }
  | regLate {a names n t slots vs b} : (a, names) ∈ [(.gb, i86Names8), (.gv, i86Names16), (.sw, i86NamesSeg)] → I86Name names n t → late = true →
      I86Build { m with reg := some n } slots vs b → I86Enc c m late a [t] slots vs b { m with reg := some n }
  | r8 {n t} : I86Name i86Names8 n t → I86Enc c m late (.r8 n) [t] [] [] [] m
  | r16 {n t} : I86Name i86Names16 n t → I86Enc c m late (.r16 n) [t] [] [] [] m
  | seg {n t} : I86Name i86NamesSeg n t → I86Enc c m late (.seg n) [t] [] [] [] m
  | rm {a names n t slots vs b} : (a, names) ∈ [(.eb, i86Names8), (.ev, i86Names16)] → I86Name names n t →
      I86LateBuild { m with mod := some 3, rm := some n } slots vs b → I86Enc c m late a [t] slots vs b { m with mod := some 3, rm := some n }
  | mem {a ts mod rm d slots vs b} : a ∈ [I86Arg.eb, .ev, .m] → [']'] ∉ ts → i86GetMod ts = some (mod, rm, ts.length, d) →
      I86LateBuild { m with mod := some mod, rm := some rm, disp := d } slots vs b →
      I86Enc c m late a (['['] :: ts ++ [[']']]) slots vs b { m with mod := some mod, rm := some rm, disp := d }
  | ib {t v} : I86Free t → I86Enc c m late .ib [t] [byteSlot t] [v] [BitVec.ofInt 8 v] m
  | iv {t v} : I86Free t → I86Enc c m late .iv [t] [wordSlot t] [v] (leBytes 2 v) m
  | jb {t v} : I86NoReg t → ':' ∉ t → I86Enc c m late .jb [t] [nearSlot c.pc t] [v] [BitVec.ofInt 8 v] m
  | jv {t v} : I86NoReg t → ':' ∉ t → I86Enc c m late .jv [t] [farSlot c.pc t] [v] (leBytes 2 v) m
  | ob {t v} : I86NoReg t → I86Enc c m late .ob [['['], t, [']']] [byteSlot t] [v] [BitVec.ofInt 8 v, 0] m
  | ov {t v} : I86NoReg t → I86Enc c m late .ov [['['], t, [']']] [wordSlot t] [v] (leBytes 2 v) m
  | mp {t v slots vs b} : I86NoReg t → I86Build { m with mod := some 0, rm := some 6 } slots vs b →
      I86Enc c m late .mp [['['], t, [']']] (slots ++ [wordSlot t]) (vs ++ [v]) (b ++ leBytes 2 v) { m with mod := some 0, rm := some 6 }
  | ap {t u v w} : ':' ∉ t → ':' ∉ u →
      I86Enc c m late .ap [t ++ ':' :: u] [wordSlot u, segSlot t] [v, w] (leBytes 2 v ++ leBytes 2 w) m
  | three : I86Enc c m late .three [['3']] [] [] [] m
  | ten {t} : parseInteger c.sy c.labels t 8 false = .ok (some 10) → I86Enc c m late .i0 [t] [] [] [] m
  | i0 {t v} : parseInteger c.sy c.labels t 8 false = .ok (some v) → v ≠ 10 → I86Enc c m late .i0 [t] [] [] [BitVec.ofInt 8 v] m

/-- The numbers are read. -/
inductive I86Reads (c : Ctx) : List M68Slot → List Int → List Reloc → Prop
  | nil : I86Reads c [] [] []
  | cons {p ps v vs r rs} : H.parseIntegerOrLabel p.2.1 p.2.2 c = (.ok v, r) → I86Reads c ps vs rs → I86Reads c (p :: ps) (v :: vs) (r ++ rs)

theorem I86Reads.one {c : Ctx} {p : M68Slot} {v : Int} {r : List Reloc} (h : H.parseIntegerOrLabel p.2.1 p.2.2 c = (.ok v, r)) : I86Reads c [p] [v] r := by
  have := I86Reads.cons h .nil
  rwa [List.append_nil] at this

theorem I86Reads.append {c : Ctx} {ps qs : List M68Slot} {vs ws : List Int} {r r' : List Reloc} (h : I86Reads c ps vs r) (h' : I86Reads c qs ws r') :
    I86Reads c (ps ++ qs) (vs ++ ws) (r ++ r') := by
  induction h with
  | nil => exact h'
  | cons h1 _ ih =>
    rw [List.append_assoc]
    exact .cons h1 ih

/-! ## the ModR/M byte -/

theorem modByte_pack : ∀ mod < 4, ∀ reg < 8, ∀ rm < 8,
    (packBits 0 [⟨7, 6, (mod : Nat)⟩, ⟨5, 3, (reg : Nat)⟩, ⟨2, 0, (rm : Nat)⟩]).toOption = some ((mod * 64 + reg * 8 + rm : Nat) : Int) := by
  decide +kernel

theorem pack_modByte {mod reg rm : Nat} (h1 : mod < 4) (h2 : reg < 8) (h3 : rm < 8) :
    packBits 0 [⟨7, 6, mod⟩, ⟨5, 3, reg⟩, ⟨2, 0, rm⟩] = .ok ((mod * 64 + reg * 8 + rm : Nat) : Int) := by
  have := modByte_pack mod h1 reg h2 rm h3
  cases h : packBits 0 [⟨7, 6, mod⟩, ⟨5, 3, reg⟩, ⟨2, 0, rm⟩] with
  | ok v => rw [h] at this; simp [Except.toOption] at this; rw [this]; simp
  | error e => rw [h] at this; cases this

theorem key_ok {x : Option Nat} {v : Int} (h : i86Key x = .ok v) : ∃ n, x = some n ∧ v = n := by
  cases x with
  | none => cases h
  | some n => cases h; exact ⟨n, rfl, rfl⟩

theorem build_head {m : I86Modrm} {c : Ctx} {mod reg rm : Nat} (hm : m.Ok) (h1 : m.mod = some mod) (h2 : m.reg = some reg) (h3 : m.rm = some rm) :
    i86Build m c = (match m.disp with
      | none => pure [modByte mod reg rm]
      | some d => do
        let v ← H.parseIntegerOrLabel { label := d.dropWhile (· == '+'), size := 2, bitsSize := 16, offset := 1 } true
        let tail ← H.lift (packLe16s [some v])
        pure (modByte mod reg rm :: tail) : H Bytes) c := by
  unfold i86Build
  rw [h1, h2, h3]
  rw [H.bind_run (show H.lift (i86Key (some mod)) c = (.ok (mod : Int), []) from rfl)]
  rw [H.bind_run (show H.lift (i86Key (some reg)) c = (.ok (reg : Int), []) from rfl)]
  rw [H.bind_run (show H.lift (i86Key (some rm)) c = (.ok (rm : Int), []) from rfl)]
  rw [H.bind_run (show H.lift (packBits 0 [⟨7, 6, mod⟩, ⟨5, 3, reg⟩, ⟨2, 0, rm⟩]) c = (.ok ((mod * 64 + reg * 8 + rm : Nat) : Int), []) by
    rw [pack_modByte (hm.mod _ h1) (hm.reg _ h2) (hm.rm _ h3)]; rfl)]
  rw [H.bind_run (show H.lift (packByte [some ((mod * 64 + reg * 8 + rm : Nat) : Int)]) c = (.ok [modByte mod reg rm], []) by
    rw [byte1]; rfl)]
  cases m.disp <;> rfl

theorem build_reads {m : I86Modrm} (hm : m.Ok) {c : Ctx} {b : Bytes} {rels : List Reloc} (h : i86Build m c = (.ok b, rels)) :
    ∃ slots vs, I86Build m slots vs b ∧ I86Reads c slots vs rels := by
  have hk : ∃ mod reg rm, m.mod = some mod ∧ m.reg = some reg ∧ m.rm = some rm := by
    have h := h
    unfold i86Build at h
    obtain ⟨v1, _, _, h1, h, -⟩ := H.bind_ok h
    obtain ⟨v2, _, _, h2, h, -⟩ := H.bind_ok h
    obtain ⟨v3, _, _, h3, h, -⟩ := H.bind_ok h
    rw [H.lift_apply] at h1 h2 h3
    obtain ⟨n1, e1, -⟩ := key_ok (Prod.mk.inj h1).1
    obtain ⟨n2, e2, -⟩ := key_ok (Prod.mk.inj h2).1
    obtain ⟨n3, e3, -⟩ := key_ok (Prod.mk.inj h3).1
    exact ⟨n1, n2, n3, e1, e2, e3⟩
  obtain ⟨mod, reg, rm, h1, h2, h3⟩ := hk
  rw [build_head hm h1 h2 h3] at h
  cases hd : m.disp with
  | none =>
    rw [hd] at h
    cases h
    exact ⟨[], [], .plain h1 h2 h3 hd, .nil⟩
  | some d =>
    rw [hd] at h
    obtain ⟨v, r, r', h4, h6, rfl⟩ := H.bind_ok h
    obtain ⟨w, r2, r3, h5, h7, rfl⟩ := H.bind_ok h6
    rw [H.lift_apply, le16s] at h5
    cases h5
    cases h7
    exact ⟨[dispSlot d], [v], .disp h1 h2 h3 hd, by simpa using I86Reads.one (p := dispSlot d) h4⟩

theorem build_run {m : I86Modrm} (hm : m.Ok) {c : Ctx} {slots : List M68Slot} {vs : List Int} {b : Bytes} {rels : List Reloc}
    (h : I86Build m slots vs b) (hr : I86Reads c slots vs rels) : i86Build m c = (.ok b, rels) := by
  cases h with
  | plain h1 h2 h3 hd =>
    cases hr
    rw [build_head hm h1 h2 h3, hd]
    rfl
  | disp h1 h2 h3 hd =>
    cases hr with
    | cons h4 h5 =>
      cases h5
      rw [build_head hm h1 h2 h3, hd, List.append_nil]
      refine lift_bind h4 ?_
      rw [H.bind_run (show H.lift (packLe16s [some _]) c = (.ok (leBytes 2 _), []) by rw [le16s]; rfl)]
      rfl

theorem late_reads {m : I86Modrm} (hm : m.Ok) {c : Ctx} {b : Bytes} {rels : List Reloc} (h : i86Late m c = (.ok b, rels)) :
    ∃ slots vs, I86LateBuild m slots vs b ∧ I86Reads c slots vs rels := by
  unfold i86Late at h
  unfold I86LateBuild
  by_cases hg : m.reg = none
  · rw [if_pos hg] at h
    cases h
    exact ⟨[], [], by rw [if_pos hg]; exact ⟨rfl, rfl, rfl⟩, .nil⟩
  · rw [if_neg hg] at h
    obtain ⟨slots, vs, h1, h2⟩ := build_reads hm h
    exact ⟨slots, vs, by rw [if_neg hg]; exact h1, h2⟩

theorem late_run {m : I86Modrm} (hm : m.Ok) {c : Ctx} {slots : List M68Slot} {vs : List Int} {b : Bytes} {rels : List Reloc}
    (h : I86LateBuild m slots vs b) (hr : I86Reads c slots vs rels) : i86Late m c = (.ok b, rels) := by
  unfold i86Late
  unfold I86LateBuild at h
  by_cases hg : m.reg = none
  · rw [if_pos hg] at h ⊢
    obtain ⟨rfl, rfl, rfl⟩ := h
    cases hr
    rfl
  · rw [if_neg hg] at h ⊢
    exact build_run hm h hr

/-! ## the argument functions -/

theorem token_ok {tokens : List Str} {index : Nat} {t : Str} {c : Ctx} {r : List Reloc} (h : H.lift (i86Token tokens index) c = (.ok t, r)) :
    (∃ us, tokens.drop index = t :: us) ∧ r = [] := by
  rw [H.lift_apply] at h
  obtain ⟨h1, h2⟩ := Prod.mk.inj h
  refine ⟨?_, h2.symm⟩
  unfold i86Token at h1
  split at h1
  · next t' ht =>
    cases h1
    obtain ⟨hlt, hg⟩ := List.getElem?_eq_some_iff.1 ht
    exact ⟨tokens.drop (index + 1), by rw [← hg, ← List.drop_eq_getElem_cons hlt]⟩
  · cases h1

theorem token_run {tokens : List Str} {index : Nat} {t : Str} {us : List Str} (h : tokens.drop index = t :: us) (c : Ctx) :
    H.lift (i86Token tokens index) c = (.ok t, []) := by
  have : tokens[index]? = some t := by
    have := List.getElem?_drop (xs := tokens) (i := index) (j := 0)
    rw [h] at this
    simpa using this.symm
  rw [H.lift_apply]
  unfold i86Token
  rw [this]

theorem upper_open {t : Str} : upper t = ['['] ↔ t = ['['] := by
  constructor
  · intro h
    simpa using upper_single (r := '[') (by decide) h
  · rintro rfl; decide

theorem upper_close {t : Str} : upper t = [']'] ↔ t = [']'] := by
  constructor
  · intro h
    simpa using upper_single (r := ']') (by decide) h
  · rintro rfl; decide

theorem noReg_iff {t : Str} : I86NoReg t ↔ i86IsReg t = false := by
  rw [← Bool.not_eq_true, isReg_iff]
  unfold I86NoReg
  constructor
  · rintro h (⟨n, h'⟩ | ⟨n, h'⟩ | ⟨n, h'⟩)
    · exact (h n).1 h'
    · exact (h n).2.1 h'
    · exact (h n).2.2 h'
  · intro h n
    exact ⟨fun h' => h (.inl ⟨n, h'⟩), fun h' => h (.inr (.inl ⟨n, h'⟩)), fun h' => h (.inr (.inr ⟨n, h'⟩))⟩

theorem direct_ok {tokens : List Str} {index : Nat} {x : Str} (h : i86Direct tokens index = some x) :
    I86NoReg x ∧ ∃ us, tokens.drop index = [['['], x, [']']] ++ us := by
  unfold i86Direct at h
  simp only at h
  split at h
  · next hm =>
    split at h
    · cases h
    · next hr =>
      cases h
      refine ⟨noReg_iff.2 (by simpa using hr), (tokens.drop index).drop 3, ?_⟩
      have hl : ((tokens.drop index).take 3).length = 3 := by
        have := hm
        match hq : (tokens.drop index).take 3, this with
        | [a, b, d], _ => rfl
        | [a, b], h => simp [matchUtil] at h
        | [a], h => simp [matchUtil] at h
        | [], h => simp [matchUtil] at h
        | a :: b :: d :: e :: l, h => simp [matchUtil] at h
      conv => lhs; rw [← List.take_append_drop 3 (tokens.drop index)]
      congr 1
      match hq : (tokens.drop index).take 3, hl with
      | [a, b, d], _ =>
        rw [hq] at hm
        simp only [matchUtil, Pat.matches₀, Bool.and_true, Bool.and_eq_true, decide_eq_true_eq] at hm
        obtain ⟨h1, h2⟩ := hm
        have h1 : a = ['['] := upper_open.1 h1
        have h2 : d = [']'] := upper_close.1 h2.2
        rw [h1, h2]
        rfl
  · cases h

theorem direct_run {tokens : List Str} {index : Nat} {x : Str} {us : List Str} (hx : I86NoReg x) (h : tokens.drop index = [['['], x, [']']] ++ us) :
    i86Direct tokens index = some x := by
  unfold i86Direct
  rw [h]
  have hr := noReg_iff.1 hx
  simp [matchUtil, Pat.matches₀, hr]

theorem take_idx {us ts vs : List Str} (h : us = ts ++ [']'] :: vs) (hn : [']'] ∉ ts) : us.take (us.idxOf [']']) = ts := by
  rw [h, List.idxOf_append, if_neg hn]
  simp

theorem getMod_bounds {ts : List Str} {mod rm delta : Nat} {d : Option Str} (h : i86GetMod ts = some (mod, rm, delta, d)) : mod < 4 ∧ rm < 8 := by
  obtain ⟨h, -⟩ := getMod_form h
  cases h with
  | plain hb => exact ⟨by decide, base_lt hb⟩
  | disp hb _ => exact ⟨by decide, base_lt hb⟩

theorem mem_ok {tokens : List Str} {index : Nat} {m m' : I86Modrm} {c : Ctx} {delta : Nat} {b : Bytes} {rels : List Reloc} {us : List Str}
    (ht : tokens.drop index = ['['] :: us) (hm : m.Ok) (h : i86Mem tokens index m c = (.ok (some (delta, b), m'), rels)) :
    ∃ ts vs mod rm d slots ws, us = ts ++ [']'] :: vs ∧ delta = ts.length + 2 ∧ [']'] ∉ ts ∧ i86GetMod ts = some (mod, rm, ts.length, d) ∧
      m' = { m with mod := some mod, rm := some rm, disp := d } ∧ m'.Ok ∧ I86LateBuild m' slots ws b ∧ I86Reads c slots ws rels := by
  have hd : tokens.drop (index + 1) = us := by rw [← List.drop_drop, ht]; rfl
  unfold i86Mem at h
  simp only [hd] at h
  by_cases hmem : [']'] ∈ us
  · rw [if_pos hmem] at h
    obtain ⟨ts, vs, hus, hn⟩ := List.eq_append_cons_of_mem hmem
    rw [take_idx hus hn] at h
    unfold H.tryCatch at h
    cases hg : i86GetMod ts with
    | none =>
      rw [hg] at h
      simp at h
    | some q =>
      obtain ⟨mod, rm, delta', d⟩ := q
      obtain ⟨-, rfl⟩ := getMod_form hg
      have hb := getMod_bounds hg
      have hm' : I86Modrm.Ok { m with mod := some mod, rm := some rm, disp := d } :=
        ⟨fun n e => by cases e; exact hb.1, hm.reg, fun n e => by cases e; exact hb.2⟩
      rw [hg] at h
      simp only at h
      split at h
      · next q r hq =>
        obtain ⟨b', r1, r2, h1, h2, rfl⟩ := H.bind_ok hq
        cases h2
        cases h
        obtain ⟨slots, ws, h3, h4⟩ := late_reads hm' h1
        exact ⟨ts, vs, mod, rm, d, slots, ws, hus, by omega, hn, hg, rfl, hm', h3, by rwa [List.append_nil]⟩
      · next e r hq =>
        by_cases he : e = .invalidOpCodeArguments
        · rw [if_pos he] at h
          simp at h
        · rw [if_neg he] at h
          simp at h
  · rw [if_neg hmem] at h
    cases h

theorem mem_run {tokens : List Str} {index : Nat} {m : I86Modrm} {c : Ctx} {ts vs : List Str} {mod rm : Nat} {d : Option Str} {b : Bytes} {rels : List Reloc}
    (ht : tokens.drop index = ['['] :: ts ++ [']'] :: vs) (hn : [']'] ∉ ts) (hg : i86GetMod ts = some (mod, rm, ts.length, d))
    (h : i86Late { m with mod := some mod, rm := some rm, disp := d } c = (.ok b, rels)) :
    i86Mem tokens index m c = (.ok (some (ts.length + 2, b), { m with mod := some mod, rm := some rm, disp := d }), rels) := by
  have hd : tokens.drop (index + 1) = ts ++ [']'] :: vs := by rw [← List.drop_drop, ht]; rfl
  unfold i86Mem
  simp only [hd]
  rw [if_pos (by simp), take_idx rfl hn]
  unfold H.tryCatch
  rw [hg]
  simp only
  have := lift_bind (g := fun b => (pure (some (2 + ts.length, b), { m with mod := some mod, rm := some rm, disp := d }) : H I86Result)) h rfl
  rw [this]
  simp [Nat.add_comm]

theorem reg_enc {c : Ctx} {a : I86Arg} {names : List String} {tokens : List Str} {index : Nat} {m m' : I86Modrm} {delta : Nat} {b : Bytes} {rels : List Reloc}
    (ha : (a, names) ∈ [(I86Arg.gb, i86Names8), (.gv, i86Names16), (.sw, i86NamesSeg)]) (hm : m.Ok)
    (h : i86Reg (names.map String.toList) tokens index m c = (.ok (some (delta, b), m'), rels)) :
    ∃ ts us slots vs, tokens.drop index = ts ++ us ∧ delta = ts.length ∧ I86Enc c m (decide (1 < index)) a ts slots vs b m' ∧ I86Reads c slots vs rels ∧ m'.Ok := by
  have hu : ∀ s ∈ names, upper s.toList = s.toList := by
    simp only [List.mem_cons, Prod.mk.injEq, List.not_mem_nil, or_false] at ha
    rcases ha with ⟨-, rfl⟩ | ⟨-, rfl⟩ | ⟨-, rfl⟩
    · exact names8_upper
    · exact names16_upper
    · exact namesSeg_upper
  have hl : names.length ≤ 8 := by
    simp only [List.mem_cons, Prod.mk.injEq, List.not_mem_nil, or_false] at ha
    rcases ha with ⟨-, rfl⟩ | ⟨-, rfl⟩ | ⟨-, rfl⟩ <;> decide
  unfold i86Reg at h
  obtain ⟨t, r, r', h1, h2, rfl⟩ := H.bind_ok h
  obtain ⟨⟨us, hus⟩, rfl⟩ := token_ok h1
  by_cases ht : upper t ∈ names.map String.toList
  · rw [if_pos ht] at h2
    have hname := name_of_mem hu ht
    have hlt : (names.map String.toList).idxOf (upper t) < 8 := by
      have := List.idxOf_lt_length_of_mem ht
      rw [List.length_map] at this
      omega
    have hm' : I86Modrm.Ok { m with reg := some ((names.map String.toList).idxOf (upper t)) } :=
      ⟨hm.mod, fun n e => by cases e; exact hlt, hm.rm⟩
    by_cases hi : 1 < index
    · simp only [if_pos hi] at h2
      obtain ⟨b', r1, r2, h3, h4, rfl⟩ := H.bind_ok h2
      cases h4
      obtain ⟨slots, vs, h5, h6⟩ := build_reads hm' h3
      exact ⟨[t], us, slots, vs, hus, rfl, .regLate ha hname (by simpa using hi) h5, by simpa using h6, hm'⟩
    · simp only [if_neg hi] at h2
      cases h2
      exact ⟨[t], us, [], [], hus, rfl, .reg ha hname (by simpa using hi), .nil, hm'⟩
  · rw [if_neg ht] at h2
    cases h2

theorem either_enc {c : Ctx} {a : I86Arg} {names : List String} {tokens : List Str} {index : Nat} {m m' : I86Modrm} {delta : Nat} {b : Bytes} {rels : List Reloc}
    (ha : (a, names) ∈ [(I86Arg.eb, i86Names8), (.ev, i86Names16)]) (hm : m.Ok)
    (h : i86Either (names.map String.toList) tokens index m c = (.ok (some (delta, b), m'), rels)) :
    ∃ ts us slots vs, tokens.drop index = ts ++ us ∧ delta = ts.length ∧ I86Enc c m (decide (1 < index)) a ts slots vs b m' ∧ I86Reads c slots vs rels ∧ m'.Ok := by
  have ha' := ha
  simp only [List.mem_cons, Prod.mk.injEq, List.not_mem_nil, or_false] at ha'
  have hu : ∀ s ∈ names, upper s.toList = s.toList := by
    rcases ha' with ⟨-, rfl⟩ | ⟨-, rfl⟩
    · exact names8_upper
    · exact names16_upper
  have hl : names.length = 8 := by rcases ha' with ⟨-, rfl⟩ | ⟨-, rfl⟩ <;> rfl
  unfold i86Either at h
  obtain ⟨t, r, r', h1, h2, rfl⟩ := H.bind_ok h
  obtain ⟨⟨us, hus⟩, rfl⟩ := token_ok h1
  by_cases ht : upper t ∈ names.map String.toList
  · rw [if_pos ht] at h2
    have hname := name_of_mem hu ht
    have hlt : (names.map String.toList).idxOf (upper t) < 8 := by
      have := List.idxOf_lt_length_of_mem ht
      rw [List.length_map] at this
      omega
    have hm' : I86Modrm.Ok { m with mod := some 3, rm := some ((names.map String.toList).idxOf (upper t)) } :=
      ⟨fun n e => by cases e; decide, hm.reg, fun n e => by cases e; exact hlt⟩
    obtain ⟨b', r1, r2, h3, h4, rfl⟩ := H.bind_ok h2
    cases h4
    obtain ⟨slots, vs, h5, h6⟩ := late_reads hm' h3
    exact ⟨[t], us, slots, vs, hus, rfl, .rm ha hname h5, by simpa using h6, hm'⟩
  · rw [if_neg ht] at h2
    by_cases hb : upper t = ['[']
    · rw [if_pos hb] at h2
      obtain rfl := upper_open.1 hb
      obtain ⟨ts, vs, mod, rm, d, slots, ws, h3, h4, h5, h6, rfl, h8, h9, h10⟩ := mem_ok hus hm h2
      refine ⟨['['] :: ts ++ [[']']], vs, slots, ws, by rw [hus, h3]; simp, by simp [h4], .mem ?_ h5 h6 h9, by simpa using h10, h8⟩
      rcases ha' with ⟨rfl, -⟩ | ⟨rfl, -⟩ <;> simp
    · rw [if_neg hb] at h2
      cases h2

theorem named_enc {names : List String} {n : Nat} {tokens : List Str} {index : Nat} {m m' : I86Modrm} {c : Ctx} {delta : Nat} {b : Bytes} {rels : List Reloc}
    (hu : ∀ s ∈ names, upper s.toList = s.toList) (hn : n < names.length)
    (h : i86Named ((names.map String.toList).getD n []) tokens index m c = (.ok (some (delta, b), m'), rels)) :
    ∃ t us, tokens.drop index = [t] ++ us ∧ delta = 1 ∧ b = [] ∧ m' = m ∧ rels = [] ∧ I86Name names n t := by
  unfold i86Named at h
  obtain ⟨t, r, r', h1, h2, rfl⟩ := H.bind_ok h
  obtain ⟨⟨us, hus⟩, rfl⟩ := token_ok h1
  have hg : (names.map String.toList).getD n [] = names[n].toList := by
    rw [List.getD_eq_getElem?_getD, List.getElem?_map, List.getElem?_eq_getElem hn]
    rfl
  by_cases ht : upper t = (names.map String.toList).getD n []
  · rw [if_pos ht] at h2
    cases h2
    refine ⟨t, us, hus, rfl, rfl, rfl, rfl, names[n], List.getElem?_eq_getElem hn, ?_⟩
    show upper t = upper _
    rw [hu _ (List.getElem_mem hn), ht, hg]
  · rw [if_neg ht] at h2
    cases h2

/-- The number after the name of the argument is the place of a register. -/
def I86Arg.ok : I86Arg → Bool
  | .r8 n => n < 8
  | .r16 n => n < 8
  | .seg n => n < 4
  | _ => true

theorem byte_le {v : Int} (h0 : 0 ≤ v) (h1 : v < 256) : leBytes 2 v = [BitVec.ofInt 8 v, 0] := by
  simp only [leBytes]
  congr 2
  have : v / 256 = 0 := by omega
  rw [this]
  rfl

theorem unsigned_bounds {r : Reloc} {c : Ctx} {v : Int} {rels : List Reloc} (hn : 1 ≤ r.bitsSize) (hr : r.relative = 0)
    (h : H.parseIntegerOrLabel r false c = (.ok v, rels)) : 0 ≤ v ∧ v < 2 ^ r.bitsSize := by
  have hp : (0 : Int) < 2 ^ r.bitsSize := Int.pow_pos (by decide)
  rcases H.parseIntegerOrLabel_ok h with ⟨hv, -⟩ | ⟨-, rfl, -⟩
  · rw [hr] at hv
    obtain ⟨x, dec, -, hx⟩ := (C13_parse_iff _ _ _ _ _ _ hn).1 hv
    have hle : (2 : Int) ^ (r.bitsSize - 1) * 2 = 2 ^ r.bitsSize := by rw [← Int.pow_succ]; congr 1; omega
    rcases hx with ⟨-, h1, h2, h3⟩ | ⟨-, -, h1, h2, h3⟩ | ⟨-, -, h1, h2, h3⟩ | ⟨-, h0, -⟩
    · omega
    · omega
    · omega
    · simp at h0
  · exact ⟨by omega, hp⟩

theorem splitOn_head : ∀ {t u : Str} {l : List Str}, t.splitOn ':' = u :: l ↔
    (l = [] ∧ t = u ∧ ':' ∉ u) ∨ ∃ rest, t = u ++ ':' :: rest ∧ ':' ∉ u ∧ rest.splitOn ':' = l
  | [], u, l => by
    simp only [List.splitOn_nil, List.cons.injEq]
    constructor
    · rintro ⟨rfl, rfl⟩
      exact .inl ⟨rfl, rfl, by simp⟩
    · rintro (⟨rfl, rfl, -⟩ | ⟨rest, h, -⟩)
      · exact ⟨rfl, rfl⟩
      · simp at h
  | x :: t, u, l => by
    have hs : (x :: t).splitOn ':' = if (x == ':') = true then [] :: t.splitOn ':' else (t.splitOn ':').modifyHead (List.cons x) :=
      List.splitOnP_cons_eq_if_modifyHead x t
    rw [hs]
    by_cases hx : x = ':'
    · subst hx
      simp only [beq_self_eq_true, if_true, List.cons.injEq]
      constructor
      · rintro ⟨rfl, h⟩
        exact .inr ⟨t, rfl, by simp, h⟩
      · rintro (⟨rfl, rfl, h⟩ | ⟨rest, h, h', h''⟩)
        · simp at h
        · match u, h, h' with
          | [], h, _ => cases h; exact ⟨rfl, h''⟩
          | y :: u, h, h' => cases h; simp at h'
    · have hx' : ¬ (x == ':') = true := by simpa using hx
      rw [if_neg hx']
      cases ht : t.splitOn ':' with
      | nil => exact absurd ht (List.splitOnP_ne_nil _ _)
      | cons v l' =>
        have ih := (splitOn_head (t := t) (u := v) (l := l')).1 ht
        simp only [List.modifyHead_cons, List.cons.injEq]
        constructor
        · rintro ⟨rfl, rfl⟩
          rcases ih with ⟨h1, rfl, h3⟩ | ⟨rest, rfl, h2, h3⟩
          · exact .inl ⟨h1, rfl, by simpa using ⟨fun e => hx e.symm, h3⟩⟩
          · exact .inr ⟨rest, rfl, by simpa using ⟨fun e => hx e.symm, h2⟩, h3⟩
        · rintro (⟨rfl, rfl, h3⟩ | ⟨rest, h1, h2, h3⟩)
          · have := (splitOn_head (t := t) (u := t) (l := [])).2 (.inl ⟨rfl, rfl, fun h => h3 (List.mem_cons_of_mem _ h)⟩)
            rw [ht] at this
            simp only [List.cons.injEq] at this
            exact ⟨by rw [this.1], this.2⟩
          · match u, h1, h2 with
            | [], h1, _ => exact absurd (List.cons.inj h1).1 hx
            | y :: u, h1, h2 =>
              obtain ⟨rfl, h4⟩ := List.cons.inj h1
              have := (splitOn_head (t := t) (u := u) (l := l)).2 (.inr ⟨rest, h4, fun h => h2 (List.mem_cons_of_mem _ h), h3⟩)
              rw [ht] at this
              simp only [List.cons.injEq] at this
              exact ⟨by rw [this.1], this.2⟩

theorem splitOn_colon {u v : Str} (hu : ':' ∉ u) (hv : ':' ∉ v) : (u ++ ':' :: v).splitOn ':' = [u, v] :=
  splitOn_head.2 (.inr ⟨v, rfl, hu, splitOn_head.2 (.inl ⟨rfl, rfl, hv⟩)⟩)

theorem of_splitOn {t u v : Str} (h : t.splitOn ':' = [u, v]) : t = u ++ ':' :: v ∧ ':' ∉ u ∧ ':' ∉ v := by
  rcases splitOn_head.1 h with ⟨h, -⟩ | ⟨rest, h1, h2, h3⟩
  · cases h
  · rcases splitOn_head.1 h3 with ⟨-, rfl, h4⟩ | ⟨rest', -, -, h4⟩
    · exact ⟨h1, h2, h4⟩
    · exact absurd h4 (List.splitOnP_ne_nil _ _)

theorem run_enc {a : I86Arg} {tokens : List Str} {index : Nat} {m m' : I86Modrm} {c : Ctx} {delta : Nat} {b : Bytes} {rels : List Reloc}
    (ha : a.ok = true) (hm : m.Ok) (hlen : 2 ≤ tokens.length) (hi : a = .i0 → index = 1)
    (h : a.run tokens index m c = (.ok (some (delta, b), m'), rels)) :
    ∃ ts us slots vs, tokens.drop index = ts ++ us ∧ delta = ts.length ∧ I86Enc c m (decide (1 < index)) a ts slots vs b m' ∧ I86Reads c slots vs rels ∧
      m'.Ok ∧ (a = .i0 → us = []) := by
  have six : a ≠ .i0 → (∃ ts us slots vs, tokens.drop index = ts ++ us ∧ delta = ts.length ∧ I86Enc c m (decide (1 < index)) a ts slots vs b m' ∧ I86Reads c slots vs rels ∧ m'.Ok) →
      ∃ ts us slots vs, tokens.drop index = ts ++ us ∧ delta = ts.length ∧ I86Enc c m (decide (1 < index)) a ts slots vs b m' ∧ I86Reads c slots vs rels ∧
      m'.Ok ∧ (a = .i0 → us = []) := by
    rintro hne ⟨ts, us, slots, vs, h1, h2, h3, h4, h5⟩
    exact ⟨ts, us, slots, vs, h1, h2, h3, h4, h5, fun e => absurd e hne⟩
  cases a with
  | gb => exact six (by simp) (reg_enc (names := i86Names8) (by simp) hm h)
  | gv => exact six (by simp) (reg_enc (names := i86Names16) (by simp) hm h)
  | sw => exact six (by simp) (reg_enc (names := i86NamesSeg) (by simp) hm h)
  | eb => exact six (by simp) (either_enc (names := i86Names8) (by simp) hm h)
  | ev => exact six (by simp) (either_enc (names := i86Names16) (by simp) hm h)
  | r8 n =>
    obtain ⟨t, us, h1, rfl, rfl, rfl, rfl, h2⟩ := named_enc (names := i86Names8) names8_upper (by simpa [I86Arg.ok, i86Names8] using ha) h
    exact ⟨[t], us, [], [], h1, rfl, .r8 h2, .nil, hm, by simp⟩
  | r16 n =>
    obtain ⟨t, us, h1, rfl, rfl, rfl, rfl, h2⟩ := named_enc (names := i86Names16) names16_upper (by simpa [I86Arg.ok, i86Names16] using ha) h
    exact ⟨[t], us, [], [], h1, rfl, .r16 h2, .nil, hm, by simp⟩
  | seg n =>
    obtain ⟨t, us, h1, rfl, rfl, rfl, rfl, h2⟩ := named_enc (names := i86NamesSeg) namesSeg_upper (by simpa [I86Arg.ok, i86NamesSeg] using ha) h
    exact ⟨[t], us, [], [], h1, rfl, .seg h2, .nil, hm, by simp⟩
  | m =>
    simp only [I86Arg.run] at h
    obtain ⟨t, r, r', h1, h2, rfl⟩ := H.bind_ok h
    obtain ⟨⟨us, hus⟩, rfl⟩ := token_ok h1
    by_cases hb : t = ['[']
    · rw [if_pos hb] at h2
      subst hb
      obtain ⟨ts, vs, mod, rm, d, slots, ws, h3, h4, h5, h6, rfl, h8, h9, h10⟩ := mem_ok hus hm h2
      exact ⟨['['] :: ts ++ [[']']], vs, slots, ws, by rw [hus, h3]; simp, by simp [h4], .mem (by simp) h5 h6 h9, by simpa using h10, h8, by simp⟩
    · rw [if_neg hb] at h2
      cases h2
  | ib =>
    simp only [I86Arg.run] at h
    obtain ⟨t, r, r', h1, h2, rfl⟩ := H.bind_ok h
    obtain ⟨⟨us, hus⟩, rfl⟩ := token_ok h1
    by_cases hb : (i86IsReg t || t = ['['] || t = [']']) = true
    · rw [if_pos hb] at h2
      cases h2
    · rw [if_neg hb] at h2
      obtain ⟨v, r1, r2, h3, h4, rfl⟩ := H.bind_ok h2
      rw [byte1] at h4
      cases h4
      exact ⟨[t], us, [byteSlot t], [v], hus, rfl, .ib (free_iff.2 (by simpa using hb)), by simpa using I86Reads.one (p := byteSlot t) h3, hm, by simp⟩
  | iv =>
    simp only [I86Arg.run] at h
    obtain ⟨t, r, r', h1, h2, rfl⟩ := H.bind_ok h
    obtain ⟨⟨us, hus⟩, rfl⟩ := token_ok h1
    by_cases hb : (i86IsReg t || t = ['['] || t = [']']) = true
    · rw [if_pos hb] at h2
      cases h2
    · rw [if_neg hb] at h2
      obtain ⟨v, r1, r2, h3, h4, rfl⟩ := H.bind_ok h2
      rw [le16u] at h4
      cases h4
      exact ⟨[t], us, [wordSlot t], [v], hus, rfl, .iv (free_iff.2 (by simpa using hb)), by simpa using I86Reads.one (p := wordSlot t) h3, hm, by simp⟩
  | jb =>
    simp only [I86Arg.run] at h
    obtain ⟨t, r, r', h1, h2, rfl⟩ := H.bind_ok h
    obtain ⟨⟨us, hus⟩, rfl⟩ := token_ok h1
    by_cases hb : (decide (':' ∈ t) || i86IsReg t) = true
    · rw [if_pos hb] at h2
      cases h2
    · rw [if_neg hb] at h2
      rw [H.bind_run (H.read_apply c)] at h2
      obtain ⟨v, r1, r2, h3, h4, rfl⟩ := H.bind_ok h2
      rw [pack8s_one] at h4
      cases h4
      simp only [Bool.or_eq_true, decide_eq_true_eq, not_or, Bool.not_eq_true] at hb
      exact ⟨[t], us, [nearSlot c.pc t], [v], hus, rfl, .jb (noReg_iff.2 hb.2) hb.1, by simpa using I86Reads.one (p := nearSlot c.pc t) h3, hm, by simp⟩
  | jv =>
    simp only [I86Arg.run] at h
    obtain ⟨t, r, r', h1, h2, rfl⟩ := H.bind_ok h
    obtain ⟨⟨us, hus⟩, rfl⟩ := token_ok h1
    by_cases hb : (decide (':' ∈ t) || i86IsReg t) = true
    · rw [if_pos hb] at h2
      cases h2
    · rw [if_neg hb] at h2
      rw [H.bind_run (H.read_apply c)] at h2
      obtain ⟨v, r1, r2, h3, h4, rfl⟩ := H.bind_ok h2
      rw [le16u] at h4
      cases h4
      simp only [Bool.or_eq_true, decide_eq_true_eq, not_or, Bool.not_eq_true] at hb
      exact ⟨[t], us, [farSlot c.pc t], [v], hus, rfl, .jv (noReg_iff.2 hb.2) hb.1, by simpa using I86Reads.one (p := farSlot c.pc t) h3, hm, by simp⟩
  | ob =>
    simp only [I86Arg.run] at h
    cases hx : i86Direct tokens index with
    | none => rw [hx] at h; cases h
    | some x =>
      rw [hx] at h
      obtain ⟨hn, us, hus⟩ := direct_ok hx
      obtain ⟨v, r1, r2, h3, h4, rfl⟩ := H.bind_ok h
      rw [le16u] at h4
      cases h4
      have hv := unsigned_bounds (by simp) rfl h3
      rw [byte_le hv.1 hv.2]
      exact ⟨_, us, [byteSlot x], [v], hus, rfl, .ob hn, by simpa using I86Reads.one (p := byteSlot x) h3, hm, by simp⟩
  | ov =>
    simp only [I86Arg.run] at h
    cases hx : i86Direct tokens index with
    | none => rw [hx] at h; cases h
    | some x =>
      rw [hx] at h
      obtain ⟨hn, us, hus⟩ := direct_ok hx
      obtain ⟨v, r1, r2, h3, h4, rfl⟩ := H.bind_ok h
      rw [le16u] at h4
      cases h4
      exact ⟨_, us, [wordSlot x], [v], hus, rfl, .ov hn, by simpa using I86Reads.one (p := wordSlot x) h3, hm, by simp⟩
  | mp =>
    simp only [I86Arg.run] at h
    cases hx : i86Direct tokens index with
    | none => rw [hx] at h; cases h
    | some x =>
      rw [hx] at h
      obtain ⟨hn, us, hus⟩ := direct_ok hx
      have hm' : I86Modrm.Ok { m with mod := some 0, rm := some 6 } :=
        ⟨fun n e => by cases e; decide, hm.reg, fun n e => by cases e; decide⟩
      obtain ⟨b', r1, r2, h3, h4, rfl⟩ := H.bind_ok h
      obtain ⟨v, r3, r4, h5, h6, rfl⟩ := H.bind_ok h4
      rw [le16u] at h6
      cases h6
      obtain ⟨slots, vs, h7, h8⟩ := build_reads hm' h3
      exact ⟨_, us, _, _, hus, rfl, .mp hn h7, by simpa using h8.append (I86Reads.one (p := wordSlot x) h5), hm', by simp⟩
  | ap =>
    simp only [I86Arg.run] at h
    obtain ⟨t, r, r', h1, h2, rfl⟩ := H.bind_ok h
    obtain ⟨⟨us, hus⟩, rfl⟩ := token_ok h1
    by_cases hb : (decide (':' ∈ t) && !i86IsReg t) = true
    · rw [if_pos hb] at h2
      cases hs : t.splitOn ':' with
      | nil => rw [hs] at h2; cases h2
      | cons s l =>
      match l, hs with
      | [], hs => rw [hs] at h2; cases h2
      | _ :: _ :: _, hs => rw [hs] at h2; cases h2
      | [o], hs =>
        rw [hs] at h2
        obtain ⟨rfl, ho1, ho2⟩ := of_splitOn hs
        obtain ⟨v, r1, r2, h3, h4, rfl⟩ := H.bind_ok h2
        obtain ⟨w, r3, r4, h5, h6, rfl⟩ := H.bind_ok h4
        rw [le16u_two] at h6
        cases h6
        exact ⟨_, us, _, _, hus, rfl, .ap ho1 ho2, by simpa using (I86Reads.one (p := wordSlot o) h3).append (I86Reads.one (p := segSlot s) h5), hm, by simp⟩
    · rw [if_neg hb] at h2
      cases h2
  | three =>
    simp only [I86Arg.run] at h
    obtain ⟨t, r, r', h1, h2, rfl⟩ := H.bind_ok h
    obtain ⟨⟨us, hus⟩, rfl⟩ := token_ok h1
    by_cases hb : t = ['3']
    · rw [if_pos hb] at h2
      subst hb
      cases h2
      exact ⟨_, us, [], [], hus, rfl, .three, .nil, hm, by simp⟩
    · rw [if_neg hb] at h2
      cases h2
  | i0 =>
    obtain rfl := hi rfl
    simp only [I86Arg.run] at h
    rw [if_neg (by omega)] at h
    by_cases h2 : tokens.length = 2
    · rw [if_pos h2] at h
      obtain ⟨t, r, r', h1, h3, rfl⟩ := H.bind_ok h
      obtain ⟨⟨us, hus⟩, rfl⟩ := token_ok h1
      have hu : us = [] := by
        have := congrArg List.length hus
        simp only [List.length_drop, List.length_cons] at this
        exact List.eq_nil_of_length_eq_zero (by omega)
      subst hu
      obtain ⟨q, r1, r2, h4, h5, rfl⟩ := H.bind_ok h3
      rw [H.parseInteger_apply] at h4
      obtain ⟨h6, rfl⟩ := Prod.mk.inj h4
      cases q with
      | none => cases h5
      | some v =>
        simp only at h5
        by_cases hv : v = 10
        · rw [if_pos hv] at h5
          cases h5
          subst hv
          exact ⟨[t], [], [], [], hus, rfl, .ten h6, .nil, hm, fun _ => rfl⟩
        · rw [if_neg hv, byte1] at h5
          cases h5
          exact ⟨[t], [], [], [], hus, rfl, .i0 h6 hv, .nil, hm, fun _ => rfl⟩
    · rw [if_neg h2] at h
      cases h

end Necro
