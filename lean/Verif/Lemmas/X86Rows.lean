import Verif.Lemmas.X86Run
import Verif.Props.Checksums
/-!
# What the rows of the x86 table emit
-/

namespace Necro
open Spec

/-! ## addresses -/

/-- A pattern that compares texts. -/
def Pat.isText : Pat → Bool
  | .str _ | .coll _ => true
  | _ => false

theorem matches_upper (p : Pat) (hp : p.isText = true) (t : Str) : p.matches₀ (upper t) = p.matches₀ t := by
  have : upper (upper t) = upper t := upper_idem t
  cases p with
  | any => cases hp
  | pred => cases hp
  | _ => simp only [Pat.matches₀, this]

theorem matchUtil_upper : ∀ (arg : List Str) (ps : List Pat), (∀ p ∈ ps, p.isText = true) → matchUtil (arg.map upper) ps = matchUtil arg ps
  | [], [], _ => rfl
  | [], _ :: _, _ => rfl
  | _ :: _, [], _ => rfl
  | t :: ts, p :: ps, h => by
    simp only [List.map_cons, matchUtil]
    rw [matches_upper p (h p (by simp)), matchUtil_upper ts ps fun q hq => h q (by simp [hq])]

theorem x86Bases_any : ∀ b ∈ x86Bases, ∀ p ∈ b.1, p.isText = true := by decide +kernel

theorem x86Bases_find (ts : List Str) : (x86Bases.find? fun b => matchUtil ts b.1) = x86Bases.find? fun b => matchUtil (ts.map upper) b.1 := by
  have : ∀ (l : List (List Pat × Nat)), (∀ b ∈ l, ∀ p ∈ b.1, p.isText = true) → (l.find? fun b => matchUtil ts b.1) = l.find? fun b => matchUtil (ts.map upper) b.1 := by
    intro l
    induction l with
    | nil => intro _; rfl
    | cons b l ih =>
      intro h
      simp only [List.find?_cons, matchUtil_upper ts b.1 (h b (by simp)), ih fun b hb => h b (by simp [hb])]
  exact this _ x86Bases_any

theorem x86Bases_plain : ∀ b ∈ i86Bases, ((x86Bases.find? fun x => matchUtil b.1 x.1).map fun x => (x.2, x.1.length)) = some (b.2, b.1.length) := by decide +kernel

theorem x86GetMod_plain {ts : List Str} {b : Nat} (h : I86BaseText b ts) : x86GetMod ts = some (0, b, ts.length, none) := by
  have hm := base_iff.1 h
  have := x86Bases_plain _ hm
  unfold x86GetMod
  rw [x86Bases_find]
  cases hf : x86Bases.find? fun b => matchUtil (ts.map upper) b.1 with
  | none => rw [hf] at this; cases this
  | some x =>
    rw [hf] at this
    simp only [Option.map_some, Option.some.injEq, Prod.mk.injEq, List.length_map] at this
    simp [this.1, this.2]

theorem matchUtil_length : ∀ {arg : List Str} {ps : List Pat}, matchUtil arg ps = true → arg.length = ps.length
  | [], [], _ => rfl
  | [], _ :: _, h => by cases h
  | _ :: _, [], h => by cases h
  | t :: ts, p :: ps, h => by
    simp only [matchUtil, Bool.and_eq_true] at h
    simp [matchUtil_length h.2]

theorem x86Wide_regs : ∀ r ∈ ["SI", "DI"], ∀ l, x86Wide r = .coll l → ∀ x ∈ l, upper x ∈ x86AllRegs ++ [['['], [']']] := by
  intro r hr l hl x hx
  simp only [x86Wide, Pat.coll.injEq] at hl
  subst hl
  revert x
  revert r
  decide +kernel

theorem x86GetMod_disp {ts : List Str} {b : Nat} (h : I86BaseText b ts) {s v : Str} (hs : s = ['+'] ∨ s = ['-']) (hv : upper v ∉ x86AllRegs ++ [['['], [']']]) :
    x86GetMod (ts ++ [s, v]) = some (2, b, ts.length + 2, some (s ++ v)) := by
  have hm := base_iff.1 h
  have hnone : x86Bases.find? (fun b => matchUtil (ts ++ [s, v]) b.1) = none := by
    rw [List.find?_eq_none]
    intro x hx hmt
    have hl := matchUtil_length hmt
    have key : ∀ p q r, matchUtil (ts ++ [s, v]) [p, q, .coll r] = true → ∃ y ∈ r, upper v = upper y := by
      intro p q r hmt
      have hl := matchUtil_length hmt
      have hl : ts.length = 1 := by simpa using hl
      obtain ⟨t, ht⟩ := List.length_eq_one_iff.1 hl
      · rw [ht] at hmt
        simp only [List.cons_append, List.nil_append, matchUtil, Bool.and_eq_true, Pat.matches₀, List.any_eq_true, decide_eq_true_eq] at hmt
        exact hmt.2.2.1
    have two : ∀ p q (r : String), r ∈ ["SI", "DI"] → matchUtil (ts ++ [s, v]) [p, q, x86Wide r] = true → False := by
      intro p q r hr hmt
      obtain ⟨y, hy, e⟩ := key p q _ hmt
      exact hv (e ▸ x86Wide_regs r hr _ rfl y hy)
    simp only [x86Bases, List.mem_cons, List.not_mem_nil, or_false] at hx
    rcases hx with rfl | rfl | rfl | rfl | rfl | rfl | rfl | rfl
    · exact two _ _ "SI" (by simp) hmt
    · exact two _ _ "DI" (by simp) hmt
    · exact two _ _ "SI" (by simp) hmt
    · exact two _ _ "DI" (by simp) hmt
    all_goals simp at hl
  unfold x86GetMod
  rw [hnone]
  have hfind : i86Bases.find? (fun b => matchUtil (ts ++ [s, v]) (b.1.map .str ++ [.coll [['+'], ['-']], .any])) = some (ts.map upper, b) := by
    refine find_base hm fun x hx => ?_
    rw [matchUtil_disp, bases_upper x hx]
    constructor
    · rintro ⟨us, s', v', e, e', -⟩
      have := List.append_inj_left' e rfl
      rw [this, e']
    · intro e
      exact ⟨ts, s, v, rfl, e.symm, hs⟩
  rw [hfind]
  simp [List.getD_eq_getElem?_getD]

/-! ## numbers are no registers -/

theorem x86Regs_plain : ∀ n ∈ x86AllRegs ++ [['['], [']']], (n.all fun c => !c.isLower) = true := by decide +kernel

theorem x86Regs_no_number : ∀ t ∈ (x86AllRegs ++ [['['], [']']]).flatMap variants,
    (internalParseInteger i8086.sy (getMathFormula t).body).toOption = some none := by decide +kernel

theorem x86_number {c : Ctx} (hsy : c.sy = i8086.sy) {use : M68Use} {n : Nat} {t : Str} {x : Int} (h : m68Number c use n t x) :
    upper t ∉ x86AllRegs ++ [['['], [']']] := by
  obtain ⟨dec, h, -⟩ := h
  rw [hsy] at h
  intro hb
  have hn := x86Regs_no_number t (List.mem_flatMap.2 ⟨_, hb, mem_variants (x86Regs_plain _ hb) rfl⟩)
  obtain ⟨lit, h1, -⟩ := h
  rw [h1] at hn
  simp [Except.toOption] at hn

/-! ## the ModR/M byte -/

theorem x86Build_head {off : Nat} {mod reg rm : Nat} {d : Option Str} {bits : Option Nat} {c : Ctx} (h1 : mod < 4) (h2 : reg < 8) (h3 : rm < 8) {b : Bytes} {rels : List Reloc}
    (h : (match d with
      | none => pure [modByte mod reg rm]
      | some d => do
        let bits ← H.lift (i86Key bits)
        let label := d.dropWhile (· == '+')
        if bits = 16 then do
          let v ← H.parseIntegerOrLabel { label := label, size := 2, bitsSize := 16, offset := off } true
          let tail ← H.lift (packLe16s [some v])
          pure ([modByte mod reg rm] ++ tail)
        else if bits = 32 then do
          let v ← H.parseIntegerOrLabel { label := label, size := 4, bitsSize := 32, offset := off } true
          let tail ← H.lift (packLe32s [some v])
          pure ([modByte mod reg rm] ++ tail)
        else if bits = 64 then do
          let v ← H.parseIntegerOrLabel { label := label, size := 8, bitsSize := 64, offset := off } true
          let tail ← H.lift (packLe64s [some v])
          pure ([modByte mod reg rm] ++ tail)
        else pure [modByte mod reg rm] : H Bytes) c = (.ok b, rels)) :
    x86Build off ⟨some mod, some reg, some rm, d, bits⟩ c = (.ok b, rels) := by
  unfold x86Build
  simp only
  rw [H.bind_run (show H.lift (i86Key (some mod)) c = (.ok (mod : Int), []) from rfl)]
  rw [H.bind_run (show H.lift (i86Key (some reg)) c = (.ok (reg : Int), []) from rfl)]
  rw [H.bind_run (show H.lift (i86Key (some rm)) c = (.ok (rm : Int), []) from rfl)]
  rw [H.bind_run (show H.lift (packBits 0 [⟨7, 6, mod⟩, ⟨5, 3, reg⟩, ⟨2, 0, rm⟩]) c = (.ok ((mod * 64 + reg * 8 + rm : Nat) : Int), []) by
    rw [pack_modByte h1 h2 h3]; rfl)]
  rw [H.bind_run (show H.lift (packByte [some ((mod * 64 + reg * 8 + rm : Nat) : Int)]) c = (.ok [modByte mod reg rm], []) by
    rw [byte1]; rfl)]
  exact h

/-- An address whose registers and displacement are known: what the ModR/M byte and the bytes after it are, for any register. -/
structure X86Adr (c : Ctx) (size : Nat) (ts : List Str) (mod rm : Nat) (tail : Bytes) : Prop where
  close : [']'] ∉ ts
  mod_lt : mod < 4
  rm_lt : rm < 8
  run : ∃ d, x86GetMod ts = some (mod, rm, ts.length, d) ∧
    ∀ off reg, reg < 8 → x86Build off ⟨some mod, some reg, some rm, d, some size⟩ c = (.ok (modByte mod reg rm :: tail), [])

theorem adr_plain {c : Ctx} {size : Nat} {ts : List Str} {b : Nat} (h : I86BaseText b ts) : X86Adr c size ts 0 b [] :=
  ⟨base_close h, by decide, base_lt h, none, x86GetMod_plain h, fun _ _ hr => x86Build_head (by decide) hr (base_lt h) rfl⟩

theorem adr_disp {c : Ctx} {ts : List Str} {b : Nat} (h : I86BaseText b ts) {s v : Str} {x : Int} (hs : s = ['+'] ∨ s = ['-'])
    (hv : upper v ∉ x86AllRegs ++ [['['], [']']]) (hx : m68Number c .disp 16 ((s ++ v).dropWhile (· == '+')) x) :
    ∃ y, y % 2 ^ 16 = x % 2 ^ 16 ∧ X86Adr c 16 (ts ++ [s, v]) 2 b (leBytes 2 y) := by
  have key : ∀ off, ∃ y, H.parseIntegerOrLabel { label := (s ++ v).dropWhile (· == '+'), size := 2, bitsSize := 16, offset := off } true c = (.ok y, []) ∧
      y % 2 ^ 16 = x % 2 ^ 16 := by
    intro off
    exact slot_number (p := (.disp, { label := (s ++ v).dropWhile (· == '+'), size := 2, bitsSize := 16, offset := off }, true))
      ⟨by simp, by simp⟩ hx
  obtain ⟨y, hy, he⟩ := key 0
  refine ⟨y, he, ?_, by decide, base_lt h, some (s ++ v), ?_, ?_⟩
  · intro hc
    rcases List.mem_append.1 hc with hc | hc
    · exact base_close h hc
    · simp only [List.mem_cons, List.not_mem_nil, or_false] at hc
      rcases hc with rfl | rfl
      · simp at hs
      · exact hv (by decide)
  · rw [x86GetMod_disp h hs hv]
    simp
  · intro off reg hr
    apply x86Build_head (by decide) hr (base_lt h)
    simp only
    rw [H.bind_run (show H.lift (i86Key (some 16)) c = (.ok (16 : Int), []) from rfl)]
    simp only [if_true]
    have hy' : H.parseIntegerOrLabel { label := (s ++ v).dropWhile (· == '+'), size := 2, bitsSize := 16, offset := off } true c = (.ok y, []) := by
      rcases H.parseIntegerOrLabel_ok hy with ⟨hv, -⟩ | ⟨-, -, h⟩
      · exact parseIntegerOrLabel_number hv
      · cases h
    rw [H.bind_run hy']
    rw [H.bind_run (show H.lift (packLe16s [some y]) c = (.ok (leBytes 2 y), []) by rw [le16s]; rfl)]
    rfl

/-! ## numbers in the instruction -/

theorem pack_le {f : List (Option Int) → Except Err Bytes} {bits : Nat} (hf : IsPacker f bits false false) (v : Int) :
    ∃ b, f [some v] = .ok b ∧ b.length = bits / 8 ∧ (ofLE b : Int) = v % 2 ^ bits := by
  obtain ⟨out, h1, h2, h3⟩ := hf [some v]
  simp only [List.length_singleton, Nat.mul_one, Nat.one_mul] at h2
  refine ⟨out, h1, h2, ?_⟩
  simp only [List.length_singleton, List.map_cons, List.map_nil, fieldValue] at h3
  have e : chunks (bits / 8) 1 out = [out] := by
    simp only [chunks]
    rw [List.take_of_length_le (by rw [h2]; simp)]
  rw [e] at h3
  simp only [List.map_cons, List.map_nil, decodeField, ofBytes, List.cons.injEq, and_true] at h3
  simpa using h3

theorem x86Imm_run {sizes : List Nat} {t : Str} {base : List Nat} {m : X86Modrm} {c : Ctx} {size : Nat} {x : Int} (hsy : c.sy = i8086.sy) (hm : m.bits = some size)
    (hs : size ∈ sizes) (h16 : size = 16 ∨ size = 32) (hx : m68Number c .data size t x) :
    ∃ b, b.length = size / 8 ∧ (ofLE b : Int) = x % 2 ^ size ∧ x86Imm sizes t base m c = (.ok (some (1, base, b), m), []) := by
  have hn := x86_number hsy hx
  obtain ⟨v, hv, he⟩ := slot_number (p := (.data, { label := t, size := size / 8, bitsSize := size, offset := base.length }, false))
    ⟨by rcases h16 with rfl | rfl <;> simp, by simp⟩ hx
  have hv : H.parseIntegerOrLabel { label := t, size := size / 8, bitsSize := size, offset := base.length } false c = (.ok v, []) := hv
  have he : v % 2 ^ size = x % 2 ^ size := he
  have key : ∃ b, (if size = 16 then packLe16u [some v] else if size = 32 then packLe32u [some v] else packLe64u [some v]) = .ok b ∧
      b.length = size / 8 ∧ (ofLE b : Int) = v % 2 ^ size := by
    rcases h16 with rfl | rfl
    · exact pack_le C01_pack_le16u v
    · exact pack_le C01_pack_le32u v
  obtain ⟨b, h1, h2, h3⟩ := key
  refine ⟨b, h2, by rw [h3, he], ?_⟩
  unfold x86Imm
  rw [if_neg hn, hm]
  simp only
  rw [if_pos hs, H.bind_run hv]
  rw [H.bind_run (show H.lift (if size = 16 then packLe16u [some v] else if size = 32 then packLe32u [some v] else packLe64u [some v]) c = (.ok b, []) by
    rw [h1]; rfl)]
  rfl

theorem pc_number {c : Ctx} {r : Reloc} {x : Int} (hb : r.bitsSize = 16) (hr : r.relative ≠ 0) (h : m68Number c .pc 16 r.label x) :
    H.parseIntegerOrLabel r false c = (.ok x, []) := by
  obtain ⟨dec, hx, hf⟩ := h
  apply parseIntegerOrLabel_number
  rw [hb]
  have hs : (false || r.relative != 0) = true := by simpa using hr
  unfold M68Fits at hf
  by_cases hd : dec = false
  · rw [if_pos hd] at hf
    exact (C13_parse_iff _ _ _ _ _ _ (by decide)).2 ⟨x, dec, hx, .inl ⟨hd, hf.1, hf.2, rfl⟩⟩
  · rw [if_neg hd] at hf
    have hd : dec = true := by simpa using hd
    exact (C13_parse_iff _ _ _ _ _ _ (by decide)).2 ⟨x, dec, hx, .inr (.inr (.inr ⟨hd, hs, hf.1, by simpa using hf.2, rfl⟩))⟩

/-! ## rows -/

theorem args_cons {a : X86Arg} {as : List X86Arg} {tokens : List Str} {base base' : List Nat} {index delta : Nat} {m m' : X86Modrm} {blob b : Bytes} {c : Ctx}
    {x : Option (List Nat × Bytes)} {rels : List Reloc} (h1 : a.run tokens base index m c = (.ok (some (delta, base', b), m'), []))
    (h2 : x86Args tokens as base' (index + delta) m' (blob ++ b) c = (.ok x, rels)) : x86Args tokens (a :: as) base index m blob c = (.ok x, rels) := by
  unfold x86Args
  rw [H.bind_run h1]
  exact h2

theorem args_last {a : X86Arg} {tokens : List Str} {base base' : List Nat} {index delta : Nat} {m m' : X86Modrm} {blob b : Bytes} {c : Ctx}
    (h1 : a.run tokens base index m c = (.ok (some (delta, base', b), m'), [])) : x86Args tokens [a] base index m blob c = (.ok (some (base', blob ++ b)), []) := by
  unfold x86Args
  rw [H.bind_run h1]
  rfl

theorem size_none {mode bits : Nat} {base : List Nat} {m : X86Modrm} (h : m.bits = none) :
    x86Size mode bits base m = (x86Pre mode bits base, { m with bits := some bits }) := by
  unfold x86Size x86Pre
  rw [if_pos h]

theorem size_some {mode bits b : Nat} {base : List Nat} {m : X86Modrm} (h : m.bits = some b) : x86Size mode bits base m = (base, m) := by
  unfold x86Size
  rw [if_neg (by rw [h]; simp)]

theorem row_reg_reg {size n1 n2 : Nat} {t t1 t2 : Str} {base : List Nat} {c : Ctx} (h1 : X86Reg size n1 t1) (h2 : X86Reg size n2 t2) :
    x86Args [t, t1, t2] [.evqp, .gvqp] base 1 {} [] c = (.ok (some (x86Pre (x86Mode c) size base, [modByte 3 n2 n1])), []) ∧
    x86Args [t, t1, t2] [.gvqp, .evqp] base 1 {} [] c = (.ok (some (x86Pre (x86Mode c) size base, [modByte 3 n1 n2])), []) := by
  constructor
  · have e1 := evqp_reg (tokens := [t, t1, t2]) (us := [t2]) (base := base) (index := 1) (m := {}) (c := c) (b := []) h1 rfl (by rw [size_none rfl]; rfl)
    rw [size_none rfl] at e1
    refine args_cons e1 ?_
    have e2 := gvqp_reg (tokens := [t, t1, t2]) (us := []) (base := x86Pre (x86Mode c) size base) (index := 1 + 1)
      (m := { mod := some 3, rm := some n1, bits := some size }) (c := c) (b := [modByte 3 n2 n1]) h2 rfl (by
        rw [if_pos (by decide), size_some rfl]
        exact x86Build_head (by decide) h2.1 h1.1 rfl)
    rw [size_some rfl] at e2
    exact args_last e2
  · have e1 := gvqp_reg (tokens := [t, t1, t2]) (us := [t2]) (base := base) (index := 1) (m := {}) (c := c) (b := []) h1 rfl (by rw [if_neg (by decide)])
    rw [size_none rfl] at e1
    refine args_cons e1 ?_
    have e2 := evqp_reg (tokens := [t, t1, t2]) (us := []) (base := x86Pre (x86Mode c) size base) (index := 1 + 1)
      (m := { reg := some n1, bits := some size }) (c := c) (b := [modByte 3 n1 n2]) h2 rfl (by
        rw [size_some rfl]
        unfold x86Late
        rw [if_neg (by simp)]
        exact x86Build_head (by decide) h1.1 h2.1 rfl)
    rw [size_some rfl] at e2
    exact args_last e2

theorem row_mem_reg {size n mod rm : Nat} {t t2 : Str} {ts : List Str} {base : List Nat} {c : Ctx} {tail : Bytes} (h1 : X86Adr c size ts mod rm tail)
    (h2 : X86Reg size n t2) : x86Args (t :: (['['] :: ts ++ [[']']]) ++ [t2]) [.evqp, .gvqp] base 1 {} [] c =
      (.ok (some (x86Pre (x86Mode c) size base, modByte mod n rm :: tail)), []) := by
  obtain ⟨d, hg, hb⟩ := h1.run
  have e1 := x86MemArg_run (tokens := t :: (['['] :: ts ++ [[']']]) ++ [t2]) (base := base) (index := 1) (m := {}) (c := c) (vs := [t2]) (b := []) (.inl rfl) (by simp) h1.close hg rfl
  refine args_cons e1 ?_
  have e2 := gvqp_reg (tokens := t :: (['['] :: ts ++ [[']']]) ++ [t2]) (us := []) (base := base) (index := 1 + (ts.length + 2))
      (m := { mod := some mod, rm := some rm, disp := d }) (c := c) (b := modByte mod n rm :: tail) h2 (by
        rw [show 1 + (ts.length + 2) = (t :: (['['] :: ts ++ [[']']])).length by simp; omega, List.drop_left]) (by
        rw [if_pos (by omega), size_none rfl]
        exact hb _ _ h2.1)
  rw [size_none rfl] at e2
  exact args_last e2

theorem row_reg_mem {size n mod rm : Nat} {t t1 : Str} {ts : List Str} {base : List Nat} {c : Ctx} {tail : Bytes} {a : X86Arg} (ha : a = .evqp ∨ a = .m)
    (h1 : X86Reg size n t1) (h2 : X86Adr c size ts mod rm tail) : x86Args (t :: [t1] ++ (['['] :: ts ++ [[']']])) [.gvqp, a] base 1 {} [] c =
      (.ok (some (x86Pre (x86Mode c) size base, modByte mod n rm :: tail)), []) := by
  obtain ⟨d, hg, hb⟩ := h2.run
  have e1 := gvqp_reg (tokens := t :: [t1] ++ (['['] :: ts ++ [[']']])) (us := ['['] :: ts ++ [[']']]) (base := base) (index := 1) (m := {}) (c := c) (b := []) h1 rfl
    (by rw [if_neg (by decide)])
  rw [size_none rfl] at e1
  refine args_cons e1 ?_
  have e2 := x86MemArg_run (tokens := t :: [t1] ++ (['['] :: ts ++ [[']']])) (base := x86Pre (x86Mode c) size base) (index := 1 + 1)
    (m := { reg := some n, bits := some size }) (c := c) (vs := []) (b := modByte mod n rm :: tail) ha rfl h2.close hg (by
      unfold x86Late
      rw [if_neg (by simp)]
      exact hb _ _ h1.1)
  exact args_last e2

theorem rax_reg {size : Nat} {t : Str} (h : X86Reg size 0 t) : (size = 16 ∧ upper t = "AX".toList) ∨ (size = 32 ∧ upper t = "EAX".toList) ∨ (size = 64 ∧ upper t = "RAX".toList) := by
  obtain ⟨-, ⟨rfl, h, e⟩ | ⟨rfl, h, e⟩ | ⟨rfl, h, e⟩⟩ := h
  · exact .inl ⟨rfl, by revert h e; generalize upper t = x; revert x; decide⟩
  · exact .inr (.inl ⟨rfl, by revert h e; generalize upper t = x; revert x; decide⟩)
  · exact .inr (.inr ⟨rfl, by revert h e; generalize upper t = x; revert x; decide⟩)

theorem row_rax {size : Nat} {t t1 t2 : Str} {base : List Nat} {c : Ctx} {x : Int} (hsy : c.sy = i8086.sy) (h16 : size = 16 ∨ size = 32) (h1 : X86Reg size 0 t1)
    (hx : m68Number c .data size t2 x) : ∃ b, b.length = size / 8 ∧ (ofLE b : Int) = x % 2 ^ size ∧
      x86Args [t, t1, t2] [.rax, .ivds] base 1 {} [] c = (.ok (some (x86Pre (x86Mode c) size base, b)), []) := by
  obtain ⟨b, hb1, hb2, hb3⟩ := x86Imm_run (sizes := [16, 32]) (base := x86Pre (x86Mode c) size base) (m := { bits := some size }) hsy rfl
    (by rcases h16 with rfl | rfl <;> decide) h16 hx
  refine ⟨b, hb1, hb2, ?_⟩
  have e1 : X86Arg.rax.run [t, t1, t2] base 1 {} c = (.ok (some (1, x86Pre (x86Mode c) size base, []), { bits := some size }), []) := by
    simp only [X86Arg.run]
    rw [H.bind_run (token_run (show [t, t1, t2].drop 1 = t1 :: [t2] from rfl) c), H.bind_run (H.read_apply c)]
    rcases rax_reg h1 with ⟨rfl, e⟩ | ⟨rfl, e⟩ | ⟨rfl, e⟩
    · rw [if_pos e]
      simp [x86Pre]
    · rw [if_neg (by rw [e]; decide), if_pos e]
      simp [x86Pre]
    · simp at h16
  refine args_cons e1 (args_last (delta := 1) (m' := { bits := some size }) ?_)
  simp only [X86Arg.run]
  rw [H.bind_run (token_run (show [t, t1, t2].drop (1 + 1) = t2 :: [] from rfl) c)]
  exact hb3

theorem applyZ_cons {a : Nat} {base : List Nat} {n : Nat} (h : base ≠ []) : x86ApplyZ (a :: base) n = a :: x86ApplyZ base n := by
  cases base with
  | nil => exact absurd rfl h
  | cons b l => simp [x86ApplyZ, List.dropLast]

theorem zvqp_reg {size n : Nat} {t : Str} {tokens us : List Str} {base : List Nat} {index : Nat} {m : X86Modrm} {c : Ctx} (hb : base ≠ []) (h16 : size = 16 ∨ size = 32)
    (h : X86Reg size n t) (ht : tokens.drop index = t :: us) :
    X86Arg.zvqp.run tokens base index m c = (.ok (some (1, x86Pre (x86Mode c) size (x86ApplyZ base n), []), { m with bits := some size }), []) := by
  simp only [X86Arg.run]
  rw [H.bind_run (token_run ht c), H.bind_run (H.read_apply c)]
  obtain ⟨-, ⟨rfl, h, e⟩ | ⟨rfl, h, e⟩ | ⟨rfl, h, e⟩⟩ := h
  · rw [if_neg (in16 h).1, if_neg (in16 h).2.1, if_pos h, e]
    by_cases hm : x86Mode c = 16
    · simp [x86Pre, hm]
    · simp [x86Pre, hm, applyZ_cons hb]
  · rw [if_pos h, e]
    simp [x86Pre]
  · simp at h16

theorem row_zv_imm {size n : Nat} {t t1 t2 : Str} {base : List Nat} {c : Ctx} {x : Int} (hsy : c.sy = i8086.sy) (h16 : size = 16 ∨ size = 32) (hb : base ≠ []) (h1 : X86Reg size n t1)
    (hx : m68Number c .data size t2 x) : ∃ b, b.length = size / 8 ∧ (ofLE b : Int) = x % 2 ^ size ∧
      x86Args [t, t1, t2] [.zvqp, .ivqp] base 1 {} [] c = (.ok (some (x86Pre (x86Mode c) size (x86ApplyZ base n), b)), []) := by
  obtain ⟨b, hb1, hb2, hb3⟩ := x86Imm_run (sizes := [16, 32, 64]) (base := x86Pre (x86Mode c) size (x86ApplyZ base n)) (m := { bits := some size }) hsy rfl
    (by rcases h16 with rfl | rfl <;> decide) h16 hx
  refine ⟨b, hb1, hb2, ?_⟩
  refine args_cons (zvqp_reg (us := [t2]) hb h16 h1 rfl) (args_last (delta := 1) (m' := { bits := some size }) ?_)
  simp only [X86Arg.run]
  rw [H.bind_run (token_run (show [t, t1, t2].drop (1 + 1) = t2 :: [] from rfl) c)]
  exact hb3

theorem row_zv {size n : Nat} {t t1 : Str} {base : List Nat} {c : Ctx} (h16 : size = 16 ∨ size = 32) (hb : base ≠ []) (h1 : X86Reg size n t1) :
    x86Args [t, t1] [.zvqp] base 1 {} [] c = (.ok (some (x86Pre (x86Mode c) size (x86ApplyZ base n), [])), []) :=
  args_last (zvqp_reg (us := []) hb h16 h1 rfl)

theorem row_stack {size n : Nat} {t t1 : Str} {base : List Nat} {c : Ctx} (h16 : size = 16 ∨ (size = 32 ∧ x86Mode c = 64)) (hb : base ≠ [])
    (h1 : X86Reg (x86Stack (x86Mode c) size) n t1) :
    x86Args [t, t1] [.zvq] base 1 {} [] c = (.ok (some (x86Pre (x86Mode c) size (x86ApplyZ base n), [])), []) := by
  refine args_last (m' := { bits := some (x86Stack (x86Mode c) size) }) (delta := 1) (b := []) ?_
  simp only [X86Arg.run]
  rw [H.bind_run (token_run (show [t, t1].drop 1 = t1 :: [] from rfl) c), H.bind_run (H.read_apply c)]
  rcases h16 with rfl | ⟨rfl, hm⟩
  · simp only [x86Stack] at h1
    rw [if_neg (by simp)] at h1
    obtain ⟨-, ⟨-, h, e⟩ | ⟨h, -⟩ | ⟨h, -⟩⟩ := h1
    · rw [if_neg (in16 h).2.1, if_pos h, e]
      by_cases hm : x86Mode c = 16
      · simp [x86Pre, hm, x86Stack]
      · simp [x86Pre, hm, x86Stack, applyZ_cons hb]
    · cases h
    · cases h
  · rw [hm] at h1
    simp only [x86Stack, and_self, if_true] at h1
    obtain ⟨-, ⟨h, -⟩ | ⟨h, -⟩ | ⟨-, h, e⟩⟩ := h1
    · cases h
    · cases h
    · rw [if_pos h, e, hm]
      simp [x86Pre, x86Stack]

theorem row_jump {mode : Nat} {t t1 : Str} {base : List Nat} {c : Ctx} {x : Int} (hsy : c.sy = i8086.sy) (hpc : 0 ≤ c.pc) (hmode : x86Mode c = mode)
    (hm : mode = 16 ∨ mode = 32 ∨ mode = 64) (hx : m68Number c .pc 16 t1 x) : ∃ b, b.length = x86Default mode / 8 ∧ (ofLE b : Int) = x % 2 ^ x86Default mode ∧
      x86Args [t, t1] [.jvds] base 1 {} [] c = (.ok (some (base, b)), []) := by
  have hn := x86_number hsy hx
  by_cases h16 : mode = 16
  · have hv := pc_number (r := { label := t1, size := 2, bitsSize := 16, offset := base.length, relative := c.pc + base.length + 2 }) rfl (by simp only; omega) hx
    obtain ⟨b, h1, h2, h3⟩ := pack_le C01_pack_le16u x
    have hd : x86Default mode = 16 := by simp [x86Default, h16]
    rw [hd]
    refine ⟨b, h2, h3, args_last (m' := {}) (delta := 1) ?_⟩
    simp only [X86Arg.run]
    rw [H.bind_run (token_run (show [t, t1].drop 1 = t1 :: [] from rfl) c), H.bind_run (H.read_apply c), if_neg hn, if_pos (by rw [hmode, h16]), H.bind_run hv,
      H.bind_run (show H.lift (packLe16u [some x]) c = (.ok b, []) by rw [h1]; rfl)]
    rfl
  · have hv := pc_number (r := { label := t1, size := 2, bitsSize := 16, offset := base.length, relative := c.pc + base.length + 4 }) rfl (by simp only; omega) hx
    obtain ⟨b, h1, h2, h3⟩ := pack_le C01_pack_le32u x
    have hd : x86Default mode = 32 := by simp [x86Default, h16]
    rw [hd]
    refine ⟨b, h2, h3, args_last (m' := {}) (delta := 1) ?_⟩
    simp only [X86Arg.run]
    rw [H.bind_run (token_run (show [t, t1].drop 1 = t1 :: [] from rfl) c), H.bind_run (H.read_apply c), if_neg hn, if_neg (by rw [hmode]; exact h16),
      if_pos (by rw [hmode]; omega), H.bind_run hv, H.bind_run (show H.lift (packLe32u [some x]) c = (.ok b, []) by rw [h1]; rfl)]
    rfl

/-- The token is control register `n`. -/
def X86Creg (n : Nat) (t : Str) : Prop := n < 8 ∧ upper t ∈ x86Cregs ∧ x86Cregs.idxOf (upper t) = n

theorem rd_run {n : Nat} {t : Str} {tokens us : List Str} {base : List Nat} {index : Nat} {m : X86Modrm} {c : Ctx} {b : Bytes} (h : X86Reg 32 n t)
    (ht : tokens.drop index = t :: us) (hb : x86Late base { m with mod := some 3, rm := some n } c = (.ok b, [])) :
    X86Arg.rd.run tokens base index m c = (.ok (some (1, base, b), { m with mod := some 3, rm := some n }), []) := by
  simp only [X86Arg.run]
  obtain ⟨-, ⟨h, -⟩ | ⟨-, h, e⟩ | ⟨h, -⟩⟩ := h
  · cases h
  · rw [H.bind_run (token_run ht c), if_pos h, e]
    exact lift_bind hb rfl
  · cases h

theorem row_rd_cd {n1 n2 : Nat} {t t1 t2 : Str} {base : List Nat} {c : Ctx} (h1 : X86Reg 32 n1 t1) (h2 : X86Creg n2 t2) :
    x86Args [t, t1, t2] [.rd, .cd] base 1 {} [] c = (.ok (some (base, [modByte 3 n2 n1])), []) := by
  refine args_cons (rd_run (b := []) h1 rfl rfl) (args_last (delta := 1) (m' := { mod := some 3, rm := some n1, reg := some n2 }) ?_)
  simp only [X86Arg.run]
  rw [H.bind_run (token_run (show [t, t1, t2].drop (1 + 1) = t2 :: [] from rfl) c), if_pos h2.2.1, h2.2.2]
  simp only [show 1 < 1 + 1 by decide, if_true]
  exact lift_bind (x86Build_head (by decide) h2.1 h1.1 rfl) rfl

theorem row_cd_rd {n1 n2 : Nat} {t t1 t2 : Str} {base : List Nat} {c : Ctx} (h1 : X86Creg n1 t1) (h2 : X86Reg 32 n2 t2) :
    x86Args [t, t1, t2] [.cd, .rd] base 1 {} [] c = (.ok (some (base, [modByte 3 n1 n2])), []) := by
  have e1 : X86Arg.cd.run [t, t1, t2] base 1 {} c = (.ok (some (1, base, []), { reg := some n1 }), []) := by
    simp only [X86Arg.run]
    rw [H.bind_run (token_run (show [t, t1, t2].drop 1 = t1 :: [t2] from rfl) c), if_pos h1.2.1, h1.2.2]
    rfl
  refine args_cons e1 (args_last (rd_run (us := []) h2 rfl ?_))
  unfold x86Late
  rw [if_neg (by simp)]
  exact x86Build_head (by decide) h1.1 h2.1 rfl

end Necro
