import Verif.Lemmas.Z80Accept
import Verif.Lemmas.Line
/-!
# C70, C71: Z80 instructions
-/

namespace Necro
open Spec

variable {c : Ctx} {t : Str} {rest : List Str} {blob : Bytes}

/-- C70: the code of a line without references is, for the processor, the instruction written. -/
theorem C70_decodes (hpc : 0 ≤ c.pc) (h : Emits z80 c t rest blob []) (ho : ¬ Z80Odd t rest) :
    ∃ i, decodeZ80 blob = some i ∧ Z80Written (m68Number c) t rest i := by
  obtain ⟨r, hr, ht, hm, he⟩ := z80_row h
  rcases rows_ok hr with hok | hodd
  · cases row_line hok ht hm he with
    | plain _ hd hw => exact ⟨_, hd, hw _⟩
    | @value hook tok lead trail v p _ _ _ hv hb _ hall =>
      rcases slot_value (z80Slot_ok hook hpc _ tok) hv with ⟨-, x, hx, hvx⟩ | ⟨hbad, -⟩
      · obtain ⟨d, w, h1, h2, h3⟩ := hall v
        exact ⟨_, by rw [hb]; exact h1, h3 _ x hx hvx⟩
      · cases hbad
  · exact absurd (z80_odd_row hodd ht hm) ho

/-- C71: whatever instruction the processor has, a line that writes it with numbers assembles to it, but for the instructions of `Z80Lost`. -/
theorem C71_accepts (hsy : c.sy = z80.sy) (hpc : 0 ≤ c.pc) {b : Bytes} {i : Z80Instr} (hb : decodeZ80 b = some i) (hl : ¬ Z80Lost i)
    (hw : Z80Written (m68Number c) t rest i) : ∃ blob, Emits z80 c t rest blob [] ∧ decodeZ80 blob = some i :=
  z80_accepts hsy hpc hb hl hw

/-! ## The lost instructions -/

/-- The bytes of a line are an instruction with the operands of its row. -/
theorem row_shape {r : List Nat × String × List String} (hok : z80RowOk r = true) {p : String × List Z80Arg} (hp : z80RowShape r.1 = some p)
    (ht : eqNoCase t r.2.1.toList) (hm : matchUtil rest (r.2.2.map z80Pat) = true) {rels : List Reloc} (he : z80Emit (t :: rest) r.1 r.2.2 c = (.ok blob, rels)) :
    ∃ i, decodeZ80 blob = some i ∧ i.mnemonic = p.1 ∧ i.args = p.2 := by
  obtain ⟨as, h1, h2, h3, h4, h5, h6, h6e⟩ := rowOk_parts hok
  rw [hp] at h1
  cases h1
  cases hh : z80HookOf r.2.2 0 with
  | none =>
    rw [hh] at h4 h6
    rw [z80Emit_none hh] at he
    simp only [Prod.mk.injEq, Except.ok.injEq] at he
    obtain ⟨rfl, rfl⟩ := he
    have h6 : r.1.length = 1 := by simpa using h6
    have := decode_row hp (data := []) (.inl h6)
    rw [List.append_nil] at this
    exact ⟨_, this.trans (fill_none h4), rfl, rfl⟩
  | some q =>
    obtain ⟨hook, i⟩ := q
    rw [hh] at h4 h6
    obtain ⟨pre, a, post, h7, h8, h9, h10⟩ := hookOf_some hh
    rw [Nat.zero_add] at h8
    rw [h7, List.map_append, List.map_cons] at hm
    obtain ⟨r1, r2, rfl, hm1, hm2⟩ := match_split hm
    cases r2 with
    | nil => cases hm2
    | cons tok r2 =>
      simp only [matchUtil, Bool.and_eq_true] at hm2
      have hlen : r1.length = i := by rw [h8, match_length hm1, List.length_map]
      have htok : (t :: (r1 ++ tok :: r2)).getD (i + 1) [] = tok := by
        rw [← hlen]
        simp
      obtain ⟨v, hv, hb⟩ := z80Emit_ok hh htok (index_third h9 hm2.1) he
      have hlen1 : r.1.length = 1 ∨ hook = .index := by simpa using h6
      have hd := decode_row hp (data := z80Bytes hook v) (by
          rcases hlen1 with h | rfl
          · exact .inl h
          · exact .inr rfl)
      obtain ⟨d, w, hf, hme⟩ := fill_value (p := (r.2.1, as)) h4 v
      exact ⟨_, by rw [hb]; exact hd.trans hf, rfl, rfl⟩

/-- The rows for a line `LD (…),n`. -/
theorem store_rows : ∀ r ∈ z80Table, r.2.1 = "LD" → r.2.2.length = 4 → r.2.2.head? = some "(" →
    r ∈ z80OddRows ∨ (r.2.2.getD 1 "" = "HL" ∧ r.2.2.getD 3 "" = "n") ∨ (z80Hook (r.2.2.getD 3 "") = none ∧ z80Regs.contains (upper (r.2.2.getD 3 "").toList) = true) := by
  decide +kernel

theorem z80_names_upper : ∀ r ∈ z80Table, upper r.2.1.toList = r.2.1.toList := by decide +kernel

theorem name_eq {r : List Nat × String × List String} (hr : r ∈ z80Table) {name : String} (hn : upper name.toList = name.toList) (ht : eqNoCase t r.2.1.toList)
    (ht' : eqNoCase t name.toList) : r.2.1 = name := by
  have e : upper r.2.1.toList = upper name.toList := ht.symm.trans ht'
  rw [z80_names_upper r hr, hn] at e
  exact String.toList_injective e

/-- C70: a line that stores a constant at an index register with a displacement assembles to three bytes, one short of an instruction. -/
theorem C70_store (hsy : c.sy = z80.sy) (hpc : 0 ≤ c.pc) {tok n : Str} {x : Int} (ht : eqNoCase t "LD".toList) (hi : Z80Indexed tok) (hn : m68Number c .data 8 n x) {rels : List Reloc}
    (h : Emits z80 c t [['('], tok, [')'], n] blob rels) : ∃ p ∈ ([0xDD, 0xFD] : Bytes), blob = [p, 0x36, BitVec.ofInt 8 x] ∧ decodeZ80 blob = none := by
  obtain ⟨r, hr, htr, hm, he⟩ := z80_row h
  have hname := name_eq hr (name := "LD") (by decide) htr ht
  have hlen : r.2.2.length = 4 := by have := match_length hm; rw [List.length_map] at this; exact this.symm
  have hval := number_value80 hsy hn
  match hargs : r.2.2, hlen with
  | [a1, a2, a3, a4], _ =>
    rw [hargs] at hm
    simp only [List.map_cons, List.map_nil, matchUtil, Bool.and_eq_true] at hm
    obtain ⟨m1, m2, m3, m4, -⟩ := hm
    have hall : ∀ r ∈ z80Table, r.2.1 = "LD" → r.2.2.length = 4 → (z80Pat (r.2.2.headD "")).matches₀ ['('] = true → r.2.2.head? = some "(" := by decide +kernel
    have hhead := hall r hr hname (by rw [hargs]; rfl) (by rw [hargs]; exact m1)
    rcases store_rows r hr hname (by rw [hargs]; rfl) hhead with hodd | ⟨h2, -⟩ | ⟨h4, h5⟩
    · have key : ∃ p ∈ ([0xDD, 0xFD] : Bytes), z80Lead (r.1.headD 0) = [p, 0x36] ∧ r.1.tail = [] ∧ z80HookOf r.2.2 0 = some (.n, 3) := by
        have : ∀ r ∈ z80OddRows, r.2.1 = "LD" → ∃ p ∈ ([0xDD, 0xFD] : Bytes), z80Lead (r.1.headD 0) = [p, 0x36] ∧ r.1.tail = [] ∧ z80HookOf r.2.2 0 = some (.n, 3) := by
          decide +kernel
        exact this r hodd hname
      obtain ⟨p, hp, k1, k2, k3⟩ := key
      obtain ⟨v, hv, hb⟩ := z80Emit_ok (t := n) k3 rfl (by rintro ⟨⟩) he
      rw [k1, k2] at hb
      have hx : v % 256 = x % 256 := by
        obtain ⟨v', h1, h2⟩ := slot_number (p := z80Slot .n c.pc (z80Lead (r.1.headD 0)).length n) (z80Slot_ok _ hpc _ _) hn
        rw [hv] at h1
        cases h1
        exact h2
      have hbx : BitVec.ofInt 8 v = BitVec.ofInt 8 x := by
        apply BitVec.eq_of_toInt_eq
        rw [BitVec.toInt_ofInt, BitVec.toInt_ofInt]
        show v.bmod 256 = x.bmod 256
        rw [Int.bmod_def, Int.bmod_def]
        show (if v % 256 < _ then v % 256 else v % 256 - _) = _
        rw [hx]
        rfl
      have hb : blob = [p, 0x36, BitVec.ofInt 8 x] := by rw [hb]; show [p, 0x36] ++ [BitVec.ofInt 8 v] ++ [] = _; rw [hbx]; rfl
      refine ⟨p, hp, hb, ?_⟩
      rw [hb]
      simp only [List.mem_cons, List.not_mem_nil, or_false] at hp
      rcases hp with rfl | rfl <;> rfl
    · rw [hargs] at h2
      have h2 : a2 = "HL" := h2
      subst h2
      have m2 : upper tok = upper "HL".toList := by simpa [Pat.matches₀, show z80Pat "HL" = .str "HL".toList from rfl] using m2
      cases hi with
      | @mk r' q s hr' hs =>
        rw [upper_append] at m2
        rcases hr' with e | e
        · rw [show upper r' = upper "IX".toList from e] at m2
          exact absurd m2 (by simp [upper])
        · rw [show upper r' = upper "IY".toList from e] at m2
          exact absurd m2 (by simp [upper])
    · rw [hargs] at h4 h5
      have h4 : z80Hook a4 = none := h4
      have h5 : z80Regs.contains (upper a4.toList) = true := h5
      rw [pat_lit h4] at m4
      have m4 : upper n = upper a4.toList := by simpa [Pat.matches₀] using m4
      unfold z80IsValue at hval
      rw [m4, h5] at hval
      cases hval

/-- The first variant for the lines that load or store `A` at an index register. -/
theorem find_a : ∀ iy : Bool, ∃ n < 68, ∃ keys : List Nat, z80Names.getD n "" = "LD" ∧ (∀ k ∈ keys, k < 78) ∧
    keys.map z80Word = ["A", "(", if iy then "IY+d" else "IX+d", ")"] ∧ z80Find keys (z80Enc.getD n []) = some [0x3A] := by
  intro iy
  cases iy
  · exact ⟨z80Names.idxOf "LD", by decide +kernel, ["A", "(", "IX+d", ")"].map fun s => z80Words.idxOf s, by decide +kernel⟩
  · exact ⟨z80Names.idxOf "LD", by decide +kernel, ["A", "(", "IY+d", ")"].map fun s => z80Words.idxOf s, by decide +kernel⟩

theorem find_to_a : ∀ iy : Bool, ∃ n < 68, ∃ keys : List Nat, z80Names.getD n "" = "LD" ∧ (∀ k ∈ keys, k < 78) ∧
    keys.map z80Word = ["(", if iy then "IY+d" else "IX+d", ")", "A"] ∧ z80Find keys (z80Enc.getD n []) = some [0x32] := by
  intro iy
  cases iy
  · exact ⟨z80Names.idxOf "LD", by decide +kernel, ["(", "IX+d", ")", "A"].map fun s => z80Words.idxOf s, by decide +kernel⟩
  · exact ⟨z80Names.idxOf "LD", by decide +kernel, ["(", "IY+d", ")", "A"].map fun s => z80Words.idxOf s, by decide +kernel⟩

/-- A line whose first variant is known is the instruction of that variant. -/
theorem find_emits (hsy : c.sy = z80.sy) {d v : Int} {n : Nat} (hn : n < 68) {keys : List Nat} (hk : ∀ k ∈ keys, k < 78)
    (hkt : Z80Keys (m68Number c) d v (keys.map z80Word) rest) (ht : eqNoCase t (z80Names.getD n "").toList) {codes : List Nat}
    (hf : z80Find keys (z80Enc.getD n []) = some codes) {p : String × List Z80Arg} (hp : z80RowShape codes = some p) (hl : z80LostShape p = false)
    {rels : List Reloc} (h : Emits z80 c t rest blob rels) : ∃ i, decodeZ80 blob = some i ∧ i.mnemonic = p.1 ∧ i.args = p.2 := by
  obtain ⟨w, hw1, hw2, hm, hcall⟩ := find_sound (t := t) hsy hk hkt (enc_words n hn) hf
  have hkey : z80.key t = (z80Names.getD n "").toList := (show upper t = upper _ from ht).trans (names_upper n hn)
  have hvar : z80Variants (z80.key t) = (z80Enc.getD n []).map fun v => (v.1, v.2.map z80Word) := by rw [hkey]; exact enc_variants n hn
  have hmem : (codes, w.2.map z80Word) ∈ z80Variants (z80.key t) := by
    rw [hvar, ← hw2]
    exact List.mem_map_of_mem hw1
  obtain ⟨r, hr, hr1, hr2, hr3⟩ := variants_row hmem
  have hrs : z80RowShape r.1 = some p := by rw [hr1]; exact hp
  have hem : z80Emit (t :: rest) codes (w.2.map z80Word) c = (.ok blob, rels) := by
    cases h with
    | fixed h => exact absurd (z80_handler h) (by simp)
    | handler h hf =>
      have e := z80_handler h
      cases e
      have hf : z80Call (t :: rest) (z80Variants (z80.key t)) c = _ := hf
      rw [hvar, hcall] at hf
      obtain ⟨b, r, r', h1, h2, rfl⟩ := H.bind_ok hf
      rw [H.pure_apply] at h2
      simp only [Prod.mk.injEq, Except.ok.injEq, Option.some.injEq] at h2
      obtain ⟨rfl, rfl⟩ := h2
      rw [List.append_nil]
      exact h1
  rcases rows_ok hr with hok | hodd
  · refine row_shape (c := c) (rels := rels) hok hrs ?_ (by rw [hr2]; exact hm) (by rw [hr1, hr2]; exact hem)
    rw [hr3, hkey]
    exact ht
  · rw [odd_lost hodd hrs] at hl
    cases hl

/-- The rows for a line `IN F,(C)`. -/
theorem in_rows : ∀ r ∈ z80Table, r.2.1 = "IN" → r.2.2.length = 4 → z80Hook (r.2.2.headD "") = none ∧ upper (r.2.2.headD "").toList ≠ ['F'] := by decide +kernel

/-- C71: the instructions of `Z80Lost` are never assembled, however they are written with numbers. -/
theorem C71_lost (hsy : c.sy = z80.sy) (hpc : 0 ≤ c.pc) {i : Z80Instr} (hl : Z80Lost i) (hw : Z80Written (m68Number c) t rest i) {rels : List Reloc}
    (h : Emits z80 c t rest blob rels) : decodeZ80 blob ≠ some i := by
  obtain ⟨m, as, d, v⟩ := i
  obtain ⟨ht, has⟩ := hw
  simp only at ht has
  obtain ⟨iy, ⟨hm, ha | ha | ha⟩ | ⟨hm, ha⟩⟩ := hl
  · simp only at hm ha
    subst hm ha
    cases has with
    | cons h1 h2 =>
      cases h2 with
      | cons h2 h3 =>
        cases h3
        cases h2 with
        | @imm8 n x hx _ =>
          have done : ∀ {tok}, Z80Indexed tok → Emits z80 c t [['('], tok, [')'], n] blob rels → decodeZ80 blob ≠ some ⟨"LD", [.idx iy, .imm8], d, v⟩ := by
            intro tok hi h
            obtain ⟨p, -, -, hnone⟩ := C70_store hsy hpc ht hi hx h
            rw [hnone]
            nofun
          cases h1 with
          | plus hr _ _ =>
            refine done (.mk ?_ (.inl rfl)) h
            cases iy
            · exact .inl hr
            · exact .inr hr
          | minus hr _ _ =>
            refine done (.mk ?_ (.inr rfl)) h
            cases iy
            · exact .inl hr
            · exact .inr hr
  · simp only at hm ha
    subst hm ha
    obtain ⟨n, hn, keys, hname, hk, hkeys, hf⟩ := find_to_a iy
    have hkt : Z80Keys (m68Number c) d v (keys.map z80Word) rest := by
      have := keys_of_args (by cases iy <;> decide) has
      rw [hkeys]
      exact this
    obtain ⟨i', h1, h2, h3⟩ := find_emits hsy hn hk hkt (by rw [hname]; exact ht) hf (p := ("LD", [.mem16, .reg "A"])) (by decide +kernel) (by decide +kernel) h
    rw [h1]
    intro e
    cases e
    cases h3
  · simp only at hm ha
    subst hm ha
    obtain ⟨n, hn, keys, hname, hk, hkeys, hf⟩ := find_a iy
    have hkt : Z80Keys (m68Number c) d v (keys.map z80Word) rest := by
      have := keys_of_args (by cases iy <;> decide) has
      rw [hkeys]
      exact this
    obtain ⟨i', h1, h2, h3⟩ := find_emits hsy hn hk hkt (by rw [hname]; exact ht) hf (p := ("LD", [.reg "A", .mem16])) (by decide +kernel) (by decide +kernel) h
    rw [h1]
    intro e
    cases e
    cases h3
  · simp only at hm ha
    subst hm ha
    exfalso
    cases has with
    | cons h1 h2 =>
      cases h1 with
      | @reg _ f hfl =>
        cases h2 with
        | cons h2 h3 =>
          cases h3
          cases h2
          obtain ⟨r, hr, htr, hm, he⟩ := z80_row h
          have hname := name_eq hr (name := "IN") (by decide) htr ht
          have hlen : r.2.2.length = 4 := by have := match_length hm; rw [List.length_map] at this; exact this.symm
          have hrow := in_rows r hr hname hlen
          match hargs : r.2.2, hlen with
          | a1 :: as, _ =>
            rw [hargs] at hm hrow
            simp only [List.map_cons, List.cons_append, matchUtil, Bool.and_eq_true] at hm
            have hm1 := hm.1
            rw [pat_lit (show z80Hook a1 = none from hrow.1)] at hm1
            have hm1 : upper f = upper a1.toList := by simpa [Pat.matches₀] using hm1
            have : upper f = upper "F".toList := hfl
            rw [hm1] at this
            exact hrow.2 this

/-! ## Examples -/

def exZ80 : Ctx := ⟨0x8000, [], z80.sy, 0⟩

/-- A test for lines that are not odd. -/
theorem not_odd80 {m : Str} {rest : List Str} (h : rest.length ≠ 8 ∧ (upper m ≠ "LD".toList ∨ rest.head? ≠ some ['('] ∨ rest.length ≠ 4)) : ¬ Z80Odd m rest := by
  intro ho
  cases ho with
  | store hm hr _ _ =>
    subst hr
    rcases h.2 with h | h | h
    · exact h hm
    · exact h rfl
    · exact h rfl
  | flags _ hl => exact h.1 hl

/-- `add a, (ix-3)` -/
example : ∃ i, decodeZ80 [0xDD, 0x86, 0xFD] = some i ∧ Z80Written (m68Number exZ80) "add".toList (["a", "(", "ix-3", ")"].map String.toList) i :=
  C70_decodes (c := exZ80) (by decide) (.handler rfl (Prod.ext (by decide +kernel) (by decide +kernel))) (not_odd80 (by decide +kernel))

example : decodeZ80 [0xDD, 0x86, 0xFD] = some ⟨"ADD", [.reg "A", .idx false], -3, 0⟩ := by decide +kernel

/-- `jp nz, $1234` -/
example : ∃ i, decodeZ80 [0xC2, 0x34, 0x12] = some i ∧ Z80Written (m68Number exZ80) "jp".toList (["nz", "$1234"].map String.toList) i :=
  C70_decodes (c := exZ80) (by decide) (.handler rfl (Prod.ext (by decide +kernel) (by decide +kernel))) (not_odd80 (by decide +kernel))

/-- `set 7, (iy+4)` -/
example : ∃ i, decodeZ80 [0xFD, 0xCB, 4, 0xFE] = some i ∧ Z80Written (m68Number exZ80) "set".toList (["7", "(", "iy+4", ")"].map String.toList) i :=
  C70_decodes (c := exZ80) (by decide) (.handler rfl (Prod.ext (by decide +kernel) (by decide +kernel))) (not_odd80 (by decide +kernel))

theorem ex80_five : m68Number exZ80 .disp 8 "5".toList 5 := ⟨true, ⟨5, by decide +kernel, by decide +kernel⟩, by unfold M68Fits; decide⟩
theorem ex80_n : m68Number exZ80 .data 8 "$12".toList 0x12 := ⟨false, ⟨0x12, by decide +kernel, by decide +kernel⟩, by unfold M68Fits; decide⟩

theorem ex80_index {value : M68Use → Nat → Str → Int → Prop} {v : Int} (h : value .disp 8 "5".toList 5) :
    Z80ArgText value 5 v (.idx false) [['('], "IX+5".toList, [')']] :=
  Z80ArgText.plus (r := "IX".toList) (t := "5".toList) rfl h rfl

/-- `LD B,(IX+5)` is accepted. -/
example : ∃ blob, Emits z80 exZ80 "LD".toList (["B", "(", "IX+5", ")"].map String.toList) blob [] ∧ decodeZ80 blob = some ⟨"LD", [.reg "B", .idx false], 5, 0⟩ :=
  C71_accepts rfl (by decide) (b := [0xDD, 0x46, 5]) (by decide +kernel) (by
      rintro ⟨iy, ⟨-, h | h | h⟩ | ⟨h, -⟩⟩
      · cases h
      · cases h
      · exact absurd h (by cases iy <;> decide)
      · exact absurd h (by decide))
    ⟨rfl, .cons (.reg (t := "B".toList) rfl) (.cons (ex80_index ex80_five) .nil)⟩

/-- `LD (IX+5),$12` is accepted, but gives three bytes. -/
example : ∃ p ∈ ([0xDD, 0xFD] : Bytes), ([0xDD, 0x36, 0x12] : Bytes) = [p, 0x36, BitVec.ofInt 8 0x12] ∧ decodeZ80 [0xDD, 0x36, 0x12] = none :=
  C70_store (c := exZ80) (t := "LD".toList) (tok := "IX+5".toList) (n := "$12".toList) rfl (by decide) rfl (.mk (r := "IX".toList) (.inl rfl) (.inl rfl)) ex80_n
    (rels := []) (.handler rfl (Prod.ext (by decide +kernel) (by decide +kernel)))

/-- `LD A,(IX+5)` is accepted, as a load from the label `IX+5`. -/
theorem ex80_load : Emits z80 exZ80 "LD".toList (["A", "(", "IX+5", ")"].map String.toList) [0x3A, 0, 0] [{ label := "IX+5".toList, size := 2, bitsSize := 16, offset := 1 }] :=
  .handler rfl (Prod.ext (by decide +kernel) rfl)

example : decodeZ80 [0x3A, 0, 0] ≠ some ⟨"LD", [.reg "A", .idx false], 5, 0⟩ :=
  C71_lost (c := exZ80) rfl (by decide) ⟨false, .inl ⟨rfl, .inr (.inr rfl)⟩⟩ ⟨rfl, .cons (.reg (t := "A".toList) rfl) (.cons (ex80_index ex80_five) .nil)⟩ ex80_load


end Necro
