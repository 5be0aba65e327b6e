import Verif.Model.Cpu.Intel8086
import Verif.Spec.Intel8086
import Verif.Lemmas.M68Run
import Verif.Props.Lr35902
/-!
# What the argument functions of the 8086 assembler take
-/

namespace Necro
open Spec

/-! ## names -/

theorem name_of_mem {names : List String} (hu : ∀ s ∈ names, upper s.toList = s.toList) {t : Str} (h : upper t ∈ names.map String.toList) :
    I86Name names ((names.map String.toList).idxOf (upper t)) t := by
  have hlt := List.idxOf_lt_length_of_mem h
  have hg := List.getElem_idxOf hlt
  refine ⟨names[(names.map String.toList).idxOf (upper t)]'(by simpa using hlt), by simp, ?_⟩
  rw [List.getElem_map] at hg
  show upper t = upper _
  rw [hg, upper_idem]

theorem mem_of_name {names : List String} (hu : ∀ s ∈ names, upper s.toList = s.toList) (hn : (names.map String.toList).Nodup) {n : Nat} {t : Str}
    (h : I86Name names n t) : upper t ∈ names.map String.toList ∧ (names.map String.toList).idxOf (upper t) = n := by
  obtain ⟨s, hs, he⟩ := h
  have he : upper t = upper s.toList := he
  rw [hu s (List.mem_of_getElem? hs)] at he
  have hm : upper t ∈ names.map String.toList := he ▸ List.mem_map_of_mem (List.mem_of_getElem? hs)
  refine ⟨hm, ?_⟩
  have hlt := List.idxOf_lt_length_of_mem hm
  have hg := List.getElem_idxOf hlt
  have hnl : n < (names.map String.toList).length := by
    rw [List.length_map]
    exact (List.getElem?_eq_some_iff.1 hs).1
  have hg2 : (names.map String.toList)[n] = upper t := by
    rw [List.getElem_map, he]
    have := (List.getElem?_eq_some_iff.1 hs).2
    rw [this]
  exact (List.getElem_inj hn).1 (hg.trans hg2.symm)

theorem names8_upper : ∀ s ∈ i86Names8, upper s.toList = s.toList := by decide
theorem names16_upper : ∀ s ∈ i86Names16, upper s.toList = s.toList := by decide
theorem namesSeg_upper : ∀ s ∈ i86NamesSeg, upper s.toList = s.toList := by decide
theorem names8_nodup : (i86Names8.map String.toList).Nodup := by decide
theorem names16_nodup : (i86Names16.map String.toList).Nodup := by decide
theorem namesSeg_nodup : (i86NamesSeg.map String.toList).Nodup := by decide

theorem isReg_iff {t : Str} : i86IsReg t = true ↔ (∃ n, I86Name i86Names8 n t) ∨ (∃ n, I86Name i86Names16 n t) ∨ (∃ n, I86Name i86NamesSeg n t) := by
  unfold i86IsReg
  rw [decide_eq_true_eq, List.mem_append, List.mem_append, or_assoc]
  refine or_congr ⟨fun h => ⟨_, name_of_mem names8_upper h⟩, fun ⟨n, h⟩ => (mem_of_name names8_upper names8_nodup h).1⟩
    (or_congr ⟨fun h => ⟨_, name_of_mem names16_upper h⟩, fun ⟨n, h⟩ => (mem_of_name names16_upper names16_nodup h).1⟩
      ⟨fun h => ⟨_, name_of_mem namesSeg_upper h⟩, fun ⟨n, h⟩ => (mem_of_name namesSeg_upper namesSeg_nodup h).1⟩)

theorem free_iff {t : Str} : I86Free t ↔ (i86IsReg t || t = ['['] || t = [']']) = false := by
  rw [Bool.or_eq_false_iff, Bool.or_eq_false_iff, ← Bool.not_eq_true (i86IsReg t), isReg_iff, decide_eq_false_iff_not, decide_eq_false_iff_not]
  unfold I86Free I86NoReg
  constructor
  · rintro ⟨h1, h2, h3⟩
    refine ⟨⟨?_, h2⟩, h3⟩
    rintro (⟨n, h⟩ | ⟨n, h⟩ | ⟨n, h⟩)
    · exact (h1 n).1 h
    · exact (h1 n).2.1 h
    · exact (h1 n).2.2 h
  · rintro ⟨⟨h1, h2⟩, h3⟩
    exact ⟨fun n => ⟨fun h => h1 (.inl ⟨n, h⟩), fun h => h1 (.inr (.inl ⟨n, h⟩)), fun h => h1 (.inr (.inr ⟨n, h⟩))⟩, h2, h3⟩

/-! ## bytes -/

theorem le16u (v : Int) : packLe16u [some v] = .ok (leBytes 2 v) := by
  rw [packLe16u_one]
  simp only [leBytes]
  congr 2
  · apply BitVec.eq_of_toInt_eq
    simp only [BitVec.toInt_ofInt]
    show (v % 65536).bmod 256 = v.bmod 256
    rw [← Int.emod_bmod (v % 65536), ← Int.emod_bmod v, Int.emod_emod_of_dvd v (by decide)]
  · congr 1
    apply BitVec.eq_of_toInt_eq
    simp only [BitVec.toInt_ofInt]
    show (v % 65536 / 256).bmod 256 = (v / 256).bmod 256
    rw [← Int.emod_bmod (v % 65536 / 256), ← Int.emod_bmod (v / 256)]
    congr 1
    omega

theorem le16u_two (v w : Int) : packLe16u [some v, some w] = .ok (leBytes 2 v ++ leBytes 2 w) := by
  have h1 := le16u v
  have h2 := le16u w
  have e1 : maskArg 16 (some v) = v % 65536 := maskArg_eq 16 (some v)
  have e2 : maskArg 16 (some w) = w % 65536 := maskArg_eq 16 (some w)
  have hf : ∀ v : Int, Fmt.fits .H (v % 65536) = true := by intro v; simp only [Fmt.fits, decide_eq_true_eq]; omega
  unfold packLe16u packAll at *
  simp only [List.map_cons, List.map_nil, List.length_cons, List.length_nil, List.replicate, e1, e2, structPack, hf, if_true] at *
  simp only [List.append_nil, Except.ok.injEq] at h1 h2
  rw [h1, h2, List.append_nil]

theorem le16s (v : Int) : packLe16s [some v] = .ok (leBytes 2 v) := by
  have hm : maskArgS 16 (some v) = v.bmod 65536 := maskArgS_eq 16 (by decide) (some v)
  unfold packLe16s packAll
  simp only [List.map_cons, List.map_nil, List.length_cons, List.length_nil, List.replicate, hm]
  have h1 : -32768 ≤ v.bmod 65536 := by have := Int.le_bmod (x := v) (m := 65536) (by decide); omega
  have h2 : v.bmod 65536 < 32768 := by have := Int.bmod_lt (x := v) (m := 65536) (by decide); omega
  have hf : Fmt.fits .h (v.bmod 65536) = true := by simp only [Fmt.fits, decide_eq_true_eq]; omega
  have hb : (v.bmod 65536) % 65536 = v % 65536 := Int.bmod_emod
  simp [structPack, hf, Fmt.size, leBytes]
  generalize v.bmod 65536 = u at *
  constructor
  all_goals
    apply BitVec.eq_of_toInt_eq
    simp only [BitVec.toInt_ofInt]
  · show u.bmod 256 = v.bmod 256
    rw [← Int.emod_bmod u, ← Int.emod_bmod v]
    congr 1
    omega
  · show (u / 256).bmod 256 = (v / 256).bmod 256
    rw [← Int.emod_bmod (u / 256), ← Int.emod_bmod (v / 256)]
    congr 1
    omega

theorem byte1 (v : Int) : packByte [some v] = .ok [BitVec.ofInt 8 v] := packByte_ok [v]

/-! ## addresses -/

theorem matchUtil_strs : ∀ (arg l : List Str), matchUtil arg (l.map .str) = true ↔ arg.map upper = l.map upper
  | [], [] => by simp [matchUtil]
  | [], b :: l => by simp [matchUtil]
  | a :: arg, [] => by simp [matchUtil]
  | a :: arg, b :: l => by
    simp only [List.map_cons, matchUtil, Bool.and_eq_true, Pat.matches₀, decide_eq_true_eq, List.cons.injEq]
    exact and_congr Iff.rfl (matchUtil_strs arg l)

theorem matchUtil_disp : ∀ (arg l : List Str), matchUtil arg (l.map .str ++ [.coll [['+'], ['-']], .any]) = true ↔
    ∃ ts s v, arg = ts ++ [s, v] ∧ ts.map upper = l.map upper ∧ (s = ['+'] ∨ s = ['-'])
  | [], [] => by simp [matchUtil]
  | [], b :: l => by simp [matchUtil]
  | [a], [] => by
    simp only [List.map_nil, List.nil_append, matchUtil, Bool.and_false, Bool.false_eq_true, List.map_eq_nil_iff, false_iff]
    rintro ⟨ts, s, v, h, rfl, -⟩
    simp at h
  | [a, b], [] => by
    simp only [List.map_nil, List.nil_append, matchUtil, Pat.matches₀, List.any_cons, List.any_nil, Bool.or_false, Bool.and_true, Bool.or_eq_true,
      decide_eq_true_eq, List.map_eq_nil_iff]
    have hp : ∀ x : Str, upper x = upper ['+'] ↔ x = ['+'] := fun x => ⟨fun h => by simpa using upper_single (r := '+') (by decide) h, fun h => by rw [h]⟩
    have hm : ∀ x : Str, upper x = upper ['-'] ↔ x = ['-'] := fun x => ⟨fun h => by simpa using upper_single (r := '-') (by decide) h, fun h => by rw [h]⟩
    rw [hp, hm]
    constructor
    · intro h
      exact ⟨[], a, b, rfl, rfl, h⟩
    · rintro ⟨ts, s, v, h, rfl, h'⟩
      cases h
      exact h'
  | a :: b :: c :: arg, [] => by
    simp only [List.map_nil, List.nil_append, matchUtil, Bool.and_false, Bool.false_eq_true, List.map_eq_nil_iff, false_iff]
    rintro ⟨ts, s, v, h, rfl, -⟩
    simp at h
  | a :: arg, b :: l => by
    simp only [List.map_cons, List.cons_append, matchUtil, Bool.and_eq_true, Pat.matches₀, decide_eq_true_eq]
    rw [matchUtil_disp arg l]
    constructor
    · rintro ⟨h, ts, s, v, rfl, h1, h2⟩
      exact ⟨a :: ts, s, v, rfl, by simp [h, h1], h2⟩
    · rintro ⟨ts, s, v, h, h1, h2⟩
      match ts, h, h1 with
      | x :: ts, h, h1 =>
        simp only [List.cons_append, List.cons.injEq] at h
        obtain ⟨rfl, rfl⟩ := h
        simp only [List.map_cons, List.cons.injEq] at h1
        exact ⟨h1.1, ts, s, v, rfl, h1.2, h2⟩

theorem bases_upper : ∀ b ∈ i86Bases, b.1.map upper = b.1 := by decide
theorem bases_nodup : (i86Bases.map Prod.fst).Nodup := by decide

theorem base_iff {b : Nat} {ts : List Str} : I86BaseText b ts ↔ (ts.map upper, b) ∈ i86Bases := by
  have hup : ∀ (x : Str) (s : String), upper s.toList = s.toList → (eqNoCase x s.toList ↔ upper x = s.toList) := by
    intro x s hs
    show upper x = upper s.toList ↔ _
    rw [hs]
  constructor
  · intro h
    cases h with
    | two hm hx hy =>
      simp only [List.mem_cons, Prod.mk.injEq, List.not_mem_nil, or_false] at hm
      rcases hm with ⟨rfl, rfl⟩ | ⟨rfl, rfl⟩ | ⟨rfl, rfl⟩ | ⟨rfl, rfl⟩
      all_goals
        have hx := (hup _ _ (by decide)).1 hx
        have hy := (hup _ _ (by decide)).1 hy
        simp only [List.map_cons, List.map_nil, hx, hy]
        decide
    | one hm hx =>
      simp only [List.mem_cons, Prod.mk.injEq, List.not_mem_nil, or_false] at hm
      rcases hm with ⟨rfl, rfl⟩ | ⟨rfl, rfl⟩ | ⟨rfl, rfl⟩ | ⟨rfl, rfl⟩
      all_goals
        have hx := (hup _ _ (by decide)).1 hx
        simp only [List.map_cons, List.map_nil, hx]
        decide
  · intro h
    have three : ∀ (p q : String), upper p.toList = p.toList → upper q.toList = q.toList → ts.map upper = [p.toList, ['+'], q.toList] →
        ∃ x y, ts = [x, ['+'], y] ∧ eqNoCase x p.toList ∧ eqNoCase y q.toList := by
      intro p q hp hq e
      have hl : ts.length = 3 := by rw [← List.length_map (f := upper), e]; rfl
      match ts, hl, e with
      | [x, z, y], _, e =>
        simp only [List.map_cons, List.map_nil, List.cons.injEq, and_true] at e
        obtain ⟨e1, e2, e3⟩ := e
        have : z = ['+'] := by simpa using upper_single (r := '+') (by decide) e2
        subst this
        exact ⟨x, y, rfl, (hup _ _ hp).2 e1, (hup _ _ hq).2 e3⟩
    have one : ∀ (p : String), upper p.toList = p.toList → ts.map upper = [p.toList] → ∃ x, ts = [x] ∧ eqNoCase x p.toList := by
      intro p hp e
      have hl : ts.length = 1 := by rw [← List.length_map (f := upper), e]; rfl
      match ts, hl, e with
      | [x], _, e =>
        simp only [List.map_cons, List.map_nil, List.cons.injEq, and_true] at e
        exact ⟨x, rfl, (hup _ _ hp).2 e⟩
    simp only [i86Bases, List.map_cons, List.map_nil, List.mem_cons, Prod.mk.injEq, List.not_mem_nil, or_false] at h
    rcases h with ⟨h, rfl⟩ | ⟨h, rfl⟩ | ⟨h, rfl⟩ | ⟨h, rfl⟩ | ⟨h, rfl⟩ | ⟨h, rfl⟩ | ⟨h, rfl⟩ | ⟨h, rfl⟩
    · obtain ⟨x, y, rfl, hx, hy⟩ := three "BX" "SI" (by decide) (by decide) h
      exact .two (p := ("BX", "SI")) (by simp) hx hy
    · obtain ⟨x, y, rfl, hx, hy⟩ := three "BX" "DI" (by decide) (by decide) h
      exact .two (p := ("BX", "DI")) (by simp) hx hy
    · obtain ⟨x, y, rfl, hx, hy⟩ := three "BP" "SI" (by decide) (by decide) h
      exact .two (p := ("BP", "SI")) (by simp) hx hy
    · obtain ⟨x, y, rfl, hx, hy⟩ := three "BP" "DI" (by decide) (by decide) h
      exact .two (p := ("BP", "DI")) (by simp) hx hy
    · obtain ⟨x, rfl, hx⟩ := one "SI" (by decide) h
      exact .one (p := "SI") (by simp) hx
    · obtain ⟨x, rfl, hx⟩ := one "DI" (by decide) h
      exact .one (p := "DI") (by simp) hx
    · obtain ⟨x, rfl, hx⟩ := one "BP" (by decide) h
      exact .one (p := "BP") (by simp) hx
    · obtain ⟨x, rfl, hx⟩ := one "BX" (by decide) h
      exact .one (p := "BX") (by simp) hx

theorem base_lt {b : Nat} {ts : List Str} (h : I86BaseText b ts) : b < 8 := by
  have := base_iff.1 h
  have hb : ∀ p ∈ i86Bases, p.2 < 8 := by decide
  exact hb _ this

/-- An address without its brackets: mode, registers, displacement. -/
inductive I86MemForm : List Str → Nat → Nat → Option Str → Prop
  | plain {b ts} : I86BaseText b ts → I86MemForm ts 0 b none
  | disp {b ts s v} : I86BaseText b ts → s = ['+'] ∨ s = ['-'] → I86MemForm (ts ++ [s, v]) 2 b (some (s ++ v))

theorem find_base {p : List Str × Nat → Bool} {b : List Str × Nat} (hb : b ∈ i86Bases) (hp : ∀ x ∈ i86Bases, p x = true ↔ x.1 = b.1) :
    i86Bases.find? p = some b := by
  cases h : i86Bases.find? p with
  | none => exact absurd (List.find?_eq_none.1 h b hb) (by rw [hp b hb]; simp)
  | some x =>
    have hx := (hp x (List.mem_of_find?_eq_some h)).1 (List.find?_some h)
    have hn := bases_nodup
    have : x = b := by
      have hmem := List.mem_of_find?_eq_some h
      have hinj : ∀ x ∈ i86Bases, ∀ y ∈ i86Bases, x.1 = y.1 → x = y := by decide
      exact hinj x hmem b hb hx
    rw [this]

theorem plain_match (ts : List Str) {x : List Str × Nat} (hx : x ∈ i86Bases) : matchUtil ts (x.1.map .str) = true ↔ x.1 = ts.map upper := by
  rw [matchUtil_strs, bases_upper x hx]
  exact eq_comm

theorem getMod_form {ts : List Str} {mod rm delta : Nat} {d : Option Str} (h : i86GetMod ts = some (mod, rm, delta, d)) :
    I86MemForm ts mod rm d ∧ delta = ts.length := by
  unfold i86GetMod at h
  split at h
  · next b hb =>
    have hm := List.mem_of_find?_eq_some hb
    have hf := List.find?_some hb
    have he := (plain_match ts hm).1 hf
    simp only [Option.some.injEq, Prod.mk.injEq] at h
    obtain ⟨rfl, rfl, rfl, rfl⟩ := h
    refine ⟨.plain (base_iff.2 ?_), by rw [he]; simp⟩
    rw [← he]; exact hm
  · split at h
    · next b hb =>
      have hm := List.mem_of_find?_eq_some hb
      have hf := List.find?_some hb
      obtain ⟨us, s, v, rfl, he, hs⟩ := (matchUtil_disp _ _).1 hf
      rw [bases_upper b hm] at he
      simp only [Option.some.injEq, Prod.mk.injEq] at h
      obtain ⟨rfl, rfl, rfl, rfl⟩ := h
      have hl : b.1.length = us.length := by rw [← he]; simp
      rw [hl]
      have g1 : (us ++ [s, v]).getD us.length [] = s := by simp [List.getD_eq_getElem?_getD]
      have g2 : (us ++ [s, v]).getD (us.length + 1) [] = v := by simp [List.getD_eq_getElem?_getD]
      rw [g1, g2]
      exact ⟨.disp (base_iff.2 (by rw [he]; exact hm)) hs, by simp⟩
    · cases h

theorem getMod_plain {ts : List Str} {b : Nat} (h : I86BaseText b ts) : i86GetMod ts = some (0, b, ts.length, none) := by
  have hm := base_iff.1 h
  unfold i86GetMod
  rw [find_base hm fun x hx => plain_match ts hx]
  simp

theorem getMod_disp {ts : List Str} {b : Nat} (h : I86BaseText b ts) {s v : Str} (hs : s = ['+'] ∨ s = ['-']) (hv : I86Free v) :
    i86GetMod (ts ++ [s, v]) = some (2, b, ts.length + 2, some (s ++ v)) := by
  have hm := base_iff.1 h
  have hnone : i86Bases.find? (fun b => matchUtil (ts ++ [s, v]) (b.1.map .str)) = none := by
    rw [List.find?_eq_none]
    intro x hx hmt
    have e := (plain_match _ hx).1 hmt
    have hl : ∀ x ∈ i86Bases, x.1.length = 1 ∨ ∀ y, x.1.getLast? = some y → y ∈ i86Regs16 := by decide
    rcases hl x hx with hl | hl
    · rw [e] at hl
      simp at hl
    · have := hl (upper v) (by rw [e]; simp)
      have hf := free_iff.1 hv
      simp [i86IsReg, this] at hf
  unfold i86GetMod
  rw [hnone]
  have hfind : i86Bases.find? (fun b => matchUtil (ts ++ [s, v]) (b.1.map .str ++ [.coll [['+'], ['-']], .any])) = some (ts.map upper, b) := by
    refine find_base hm fun x hx => ?_
    rw [matchUtil_disp, bases_upper x hx]
    constructor
    · rintro ⟨us, s', v', e, e', -⟩
      have := List.append_inj_left' e rfl
      rw [this, e']
    · intro e
      exact ⟨ts, s, v, rfl, e.symm, hs⟩
  rw [hfind]
  simp [List.getD_eq_getElem?_getD]

end Necro
