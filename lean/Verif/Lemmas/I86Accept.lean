import Verif.Lemmas.I86Line
/-!
# Lines of 8086 assembly the assembler accepts
-/

namespace Necro
open Spec

/-- The ways to write an operand, as far as the assembler can tell them apart. -/
inductive I86Cls where
  | r8 (n : Nat) | r16 (n : Nat) | seg (n : Nat)
  | mem | dir8 | dir | d8 | d16 | p8 | p16 | far
deriving DecidableEq, Repr

inductive I86Cls.Text (c : Ctx) : I86Cls → List Str → Prop
  | r8 {n t} : I86Name i86Names8 n t → Text c (.r8 n) [t]
  | r16 {n t} : I86Name i86Names16 n t → Text c (.r16 n) [t]
  | seg {n t} : I86Name i86NamesSeg n t → Text c (.seg n) [t]
  | mem {ts mod rm d} : [']'] ∉ ts → i86GetMod ts = some (mod, rm, ts.length, d) →
      (∀ x, d = some x → ∃ y, m68Number c .disp 16 (x.dropWhile (· == '+')) y) → ts.length ≠ 1 ∨ (∃ t, ts = [t] ∧ ¬ I86NoReg t) →
      Text c .mem (['['] :: ts ++ [[']']])
  | dir8 {v x} : I86NoReg v → m68Number c .data 8 v x → Text c .dir8 [['['], v, [']']]
  | dir {v x} : I86NoReg v → m68Number c .data 16 v x → Text c .dir [['['], v, [']']]
  | d8 {v x} : I86Free v → m68Number c .data 8 v x → Text c .d8 [v]
  | d16 {v x} : I86Free v → m68Number c .data 16 v x → Text c .d16 [v]
  | p8 {v x} : I86Free v → ':' ∉ v → m68Number c .pc 8 v x → Text c .p8 [v]
  | p16 {v x} : I86Free v → ':' ∉ v → m68Number c .pc 16 v x → Text c .p16 [v]
  | far {u v x y} : ':' ∉ u → ':' ∉ v → m68Number c .data 16 u x → m68Number c .data 16 v y → Text c .far [u ++ ':' :: v]

/-- What an argument function does with an operand: takes it, refuses it, one of both, or possibly fails. -/
inductive I86Out where
  | yes | no | maybe | bad
deriving DecidableEq, Repr

def I86Arg.out (a : I86Arg) (cl : I86Cls) (rm reg late : Bool) : I86Out :=
  match a, cl with
  | .gb, .r8 _ | .gv, .r16 _ | .sw, .seg _ => if late && !rm then .bad else .yes
  | .gb, .far | .gv, .far | .sw, .far => .bad
  | .gb, _ | .gv, _ | .sw, _ => .no
  | .r8 n, .r8 k | .r16 n, .r16 k | .seg n, .seg k => if n = k then .yes else .no
  | .r8 _, .far | .r16 _, .far | .seg _, .far => .bad
  | .r8 n, _ => if n < 8 then .no else .bad
  | .r16 n, _ => if n < 8 then .no else .bad
  | .seg n, _ => if n < 4 then .no else .bad
  | .eb, .r8 _ | .ev, .r16 _ | .eb, .mem | .ev, .mem | .m, .mem => .yes
  | .eb, .far | .ev, .far | .m, .far => .bad
  | .eb, _ | .ev, _ | .m, _ => .no
  | .ib, .d8 | .iv, .d8 | .iv, .d16 => .yes
  | .ib, .d16 | .ib, .p8 | .ib, .p16 | .ib, .far | .iv, .p8 | .iv, .p16 | .iv, .far => .bad
  | .ib, _ | .iv, _ => .no
  | .jb, .p8 | .jv, .p8 | .jv, .p16 => .yes
  | .jb, .r8 _ | .jb, .r16 _ | .jb, .seg _ | .jb, .far => .no
  | .jv, .r8 _ | .jv, .r16 _ | .jv, .seg _ | .jv, .far => .no
  | .jb, _ | .jv, _ => .bad
  | .ob, .dir8 | .ov, .dir8 | .ov, .dir => .yes
  | .ob, .dir | .ob, .far | .ov, .far | .mp, .far => .bad
  | .ob, _ | .ov, _ => .no
  | .mp, .dir8 | .mp, .dir => if reg then .yes else .bad
  | .mp, _ => .no
  | .ap, .far => .yes
  | .ap, .r8 _ | .ap, .r16 _ | .ap, .seg _ | .ap, .p8 | .ap, .p16 => .no
  | .ap, _ => .bad
  | .three, .r8 _ | .three, .r16 _ | .three, .seg _ | .three, .d8 => .maybe
  | .three, _ => .bad
  | .i0, .d8 => .yes
  | .i0, _ => .bad

def I86Arg.setsRm : I86Arg → Bool
  | .eb | .ev | .m | .mp => true
  | _ => false
def I86Arg.setsReg : I86Arg → Bool
  | .gb | .gv | .sw => true
  | _ => false

/-- What is known of the dictionary. -/
structure I86State (c : Ctx) (m : I86Modrm) (rm reg : Bool) : Prop where
  ok : m.Ok
  rm : rm = true → (∃ n, m.mod = some n) ∧ ∃ n, m.rm = some n
  reg : reg = true ↔ m.reg ≠ none
  disp : ∀ d, m.disp = some d → ∃ y, m68Number c .disp 16 (d.dropWhile (· == '+')) y

theorem slot_one {c : Ctx} {p : M68Slot} (hp : SlotOk p) {x : Int} (h : m68Number c p.1 p.2.1.bitsSize p.2.1.label x) : ∃ v, I86Reads c [p] [v] [] := by
  obtain ⟨v, hv, -⟩ := slot_number hp h
  exact ⟨v, .one hv⟩

theorem dispSlot_ok (d : Str) : SlotOk (dispSlot d) := ⟨by simp [dispSlot], by simp [dispSlot]⟩
theorem wordSlot_ok (d : Str) : SlotOk (wordSlot d) := ⟨by simp [wordSlot], by simp [wordSlot]⟩
theorem segSlot_ok (d : Str) : SlotOk (segSlot d) := ⟨by simp [segSlot], by simp [segSlot]⟩

theorem build_exists {c : Ctx} {m : I86Modrm} {mod rm reg : Nat} (h1 : m.mod = some mod) (h2 : m.reg = some reg) (h3 : m.rm = some rm)
    (hd : ∀ d, m.disp = some d → ∃ y, m68Number c .disp 16 (d.dropWhile (· == '+')) y) : ∃ s v b, I86Build m s v b ∧ I86Reads c s v [] := by
  cases hm : m.disp with
  | none => exact ⟨_, _, _, .plain h1 h2 h3 hm, .nil⟩
  | some d =>
    obtain ⟨y, hy⟩ := hd d hm
    obtain ⟨v, hv⟩ := slot_one (dispSlot_ok d) hy
    exact ⟨_, _, _, .disp h1 h2 h3 hm, hv⟩

theorem late_exists {c : Ctx} {m : I86Modrm} {mod rm : Nat} (h1 : m.mod = some mod) (h3 : m.rm = some rm)
    (hd : ∀ d, m.disp = some d → ∃ y, m68Number c .disp 16 (d.dropWhile (· == '+')) y) : ∃ s v b, I86LateBuild m s v b ∧ I86Reads c s v [] := by
  unfold I86LateBuild
  cases hr : m.reg with
  | none => exact ⟨[], [], [], by simp, .nil⟩
  | some reg =>
    obtain ⟨s, v, b, h4, h5⟩ := build_exists h1 hr h3 hd
    exact ⟨s, v, b, by simpa using h4, h5⟩

/-! ## refusals -/

theorem reg_no {names tokens : List Str} {index : Nat} {m : I86Modrm} {c : Ctx} {t : Str} {us : List Str} (ht : tokens.drop index = t :: us) (h : upper t ∉ names) :
    i86Reg names tokens index m c = (.ok (none, m), []) := by
  unfold i86Reg
  rw [H.bind_run (token_run ht c), if_neg h]
  rfl

theorem named_no {name : Str} {tokens : List Str} {index : Nat} {m : I86Modrm} {c : Ctx} {t : Str} {us : List Str} (ht : tokens.drop index = t :: us) (h : upper t ≠ name) :
    i86Named name tokens index m c = (.ok (none, m), []) := by
  unfold i86Named
  rw [H.bind_run (token_run ht c), if_neg h]
  rfl

theorem either_no {names tokens : List Str} {index : Nat} {m : I86Modrm} {c : Ctx} {t : Str} {us : List Str} (ht : tokens.drop index = t :: us) (h : upper t ∉ names)
    (h' : upper t ≠ ['[']) : i86Either names tokens index m c = (.ok (none, m), []) := by
  unfold i86Either
  rw [H.bind_run (token_run ht c), if_neg h, if_neg h']
  rfl

theorem m_no {tokens : List Str} {index : Nat} {m : I86Modrm} {c : Ctx} {t : Str} {us : List Str} (ht : tokens.drop index = t :: us)
    (h' : t ≠ ['[']) : I86Arg.m.run tokens index m c = (.ok (none, m), []) := by
  simp only [I86Arg.run]
  rw [H.bind_run (token_run ht c), if_neg h']
  rfl

theorem getMod_noReg {v : Str} (hv : I86NoReg v) : i86GetMod [v] = none := by
  cases hg : i86GetMod [v] with
  | none => rfl
  | some q =>
    obtain ⟨mod, rm, delta, d⟩ := q
    exfalso
    obtain ⟨hf, -⟩ := getMod_form hg
    generalize he : [v] = l at hf
    cases hf with
    | plain hb =>
      subst he
      cases hb with
      | one hp hx =>
        have : ∀ q ∈ [(4, "SI"), (5, "DI"), (6, "BP"), (7, "BX")], ∃ n < 8, i86Names16[n]? = some q.2 := by decide
        obtain ⟨n, -, hn⟩ := this _ hp
        exact (hv n).2.1 ⟨_, hn, hx⟩
    | disp hb hs =>
      have := congrArg List.length he
      simp at this

theorem mem_no {tokens : List Str} {index : Nat} {m : I86Modrm} {c : Ctx} {v : Str} {us : List Str} (ht : tokens.drop index = ['['] :: v :: [']'] :: us)
    (hv : I86NoReg v) (hc : v ≠ [']']) : i86Mem tokens index m c = (.ok (none, m), []) := by
  have hd : tokens.drop (index + 1) = [v] ++ [']'] :: us := by rw [← List.drop_drop, ht]; rfl
  have hg := getMod_noReg hv
  unfold i86Mem
  simp only [hd]
  rw [if_pos (by simp), take_idx rfl (by simpa using hc.symm)]
  unfold H.tryCatch
  rw [hg]
  rfl

theorem imm_no {a : I86Arg} {tokens : List Str} {index : Nat} {m : I86Modrm} {c : Ctx} {t : Str} {us : List Str} (ha : a = .ib ∨ a = .iv)
    (ht : tokens.drop index = t :: us) (h : ¬ I86Free t) : a.run tokens index m c = (.ok (none, m), []) := by
  rw [free_iff, Bool.not_eq_false] at h
  rcases ha with rfl | rfl <;>
  · simp only [I86Arg.run]
    rw [H.bind_run (token_run ht c), if_pos h]
    rfl

theorem rel_no {a : I86Arg} {tokens : List Str} {index : Nat} {m : I86Modrm} {c : Ctx} {t : Str} {us : List Str} (ha : a = .jb ∨ a = .jv)
    (ht : tokens.drop index = t :: us) (h : ':' ∈ t ∨ ¬ I86NoReg t) : a.run tokens index m c = (.ok (none, m), []) := by
  rw [noReg_iff, Bool.not_eq_false] at h
  rcases ha with rfl | rfl <;>
  · simp only [I86Arg.run]
    rw [H.bind_run (token_run ht c), if_pos (by simpa using h)]
    rfl

theorem ap_no {tokens : List Str} {index : Nat} {m : I86Modrm} {c : Ctx} {t : Str} {us : List Str}
    (ht : tokens.drop index = t :: us) (h : ':' ∉ t ∨ ¬ I86NoReg t) : I86Arg.ap.run tokens index m c = (.ok (none, m), []) := by
  rw [noReg_iff, Bool.not_eq_false] at h
  simp only [I86Arg.run]
  rw [H.bind_run (token_run ht c), if_neg (by
    simp only [Bool.and_eq_true, decide_eq_true_eq, Bool.not_eq_true', not_and, Bool.not_eq_false]
    intro hc
    exact h.resolve_left (fun hn => hn hc))]
  rfl

theorem direct_no {a : I86Arg} {tokens : List Str} {index : Nat} {m : I86Modrm} {c : Ctx} (ha : a = .ob ∨ a = .ov ∨ a = .mp)
    (h : i86Direct tokens index = none) : a.run tokens index m c = (.ok (none, m), []) := by
  rcases ha with rfl | rfl | rfl <;>
  · simp only [I86Arg.run, h]
    rfl

theorem direct_head {tokens : List Str} {index : Nat} {t : Str} {us : List Str} (ht : tokens.drop index = t :: us) (h : t ≠ ['[']) : i86Direct tokens index = none := by
  cases hd : i86Direct tokens index with
  | none => rfl
  | some x =>
    obtain ⟨-, vs, hv⟩ := direct_ok hd
    rw [ht] at hv
    exact absurd (List.cons.inj hv).1 h

theorem no8 {n : Nat} {t : Str} (h : I86Name i86Names8 n t) : upper t ∉ i86Regs16 ∧ upper t ∉ i86Segments ∧ upper t ≠ ['['] ∧ t ≠ ['['] ∧ ¬ I86NoReg t ∧ ¬ I86Free t := by
  have hm := (mem_of_name names8_upper names8_nodup h).1
  have hd : ∀ x ∈ i86Regs8, x ∉ i86Regs16 ∧ x ∉ i86Segments ∧ x ≠ ['['] := by decide
  have := hd _ hm
  exact ⟨this.1, this.2.1, this.2.2, fun e => this.2.2 (upper_open.2 e), fun hn => (hn n).1 h, fun hn => (hn.1 n).1 h⟩

theorem no16 {n : Nat} {t : Str} (h : I86Name i86Names16 n t) : upper t ∉ i86Regs8 ∧ upper t ∉ i86Segments ∧ upper t ≠ ['['] ∧ t ≠ ['['] ∧ ¬ I86NoReg t ∧ ¬ I86Free t := by
  have hm := (mem_of_name names16_upper names16_nodup h).1
  have hd : ∀ x ∈ i86Regs16, x ∉ i86Regs8 ∧ x ∉ i86Segments ∧ x ≠ ['['] := by decide
  have := hd _ hm
  exact ⟨this.1, this.2.1, this.2.2, fun e => this.2.2 (upper_open.2 e), fun hn => (hn n).2.1 h, fun hn => (hn.1 n).2.1 h⟩

theorem noSeg {n : Nat} {t : Str} (h : I86Name i86NamesSeg n t) : upper t ∉ i86Regs8 ∧ upper t ∉ i86Regs16 ∧ upper t ≠ ['['] ∧ t ≠ ['['] ∧ ¬ I86NoReg t ∧ ¬ I86Free t := by
  have hm := (mem_of_name namesSeg_upper namesSeg_nodup h).1
  have hd : ∀ x ∈ i86Segments, x ∉ i86Regs8 ∧ x ∉ i86Regs16 ∧ x ≠ ['['] := by decide
  have := hd _ hm
  exact ⟨this.1, this.2.1, this.2.2, fun e => this.2.2 (upper_open.2 e), fun hn => (hn n).2.2 h, fun hn => (hn.1 n).2.2 h⟩

theorem noFree {t : Str} (h : I86Free t) : upper t ∉ i86Regs8 ∧ upper t ∉ i86Regs16 ∧ upper t ∉ i86Segments ∧ upper t ≠ ['['] ∧ t ≠ ['['] :=
  ⟨fun hm => (h.1 _).1 (name_of_mem names8_upper hm), fun hm => (h.1 _).2.1 (name_of_mem names16_upper hm), fun hm => (h.1 _).2.2 (name_of_mem namesSeg_upper hm),
    fun e => h.2.1 (upper_open.1 e), h.2.1⟩

theorem noOpen : upper ['['] ∉ i86Regs8 ∧ upper ['['] ∉ i86Regs16 ∧ upper ['['] ∉ i86Segments ∧ ¬ I86Free ['['] :=
  ⟨by decide, by decide, by decide, fun h => h.2.1 rfl⟩

/-- What an argument function gives. -/
inductive I86Gives (c : Ctx) (a : I86Arg) (tokens : List Str) (index : Nat) (m : I86Modrm) (ts : List Str) (rm reg : Bool) : I86Out → Prop
  | yes {o b m'} : o = .yes ∨ o = .maybe → a.run tokens index m c = (.ok (some (ts.length, b), m'), []) → I86State c m' (rm || a.setsRm) (reg || a.setsReg) →
      I86Gives c a tokens index m ts rm reg o
  | no {o m'} : o = .no ∨ o = .maybe → a.run tokens index m c = (.ok (none, m'), []) → I86Gives c a tokens index m ts rm reg o
  | bad : I86Gives c a tokens index m ts rm reg .bad

variable {c : Ctx} {tokens : List Str} {index : Nat} {m : I86Modrm} {ts us : List Str} {rm reg : Bool}

theorem gives_no {a : I86Arg} (h : a.run tokens index m c = (.ok (none, m), [])) : I86Gives c a tokens index m ts rm reg .no := .no (.inl rfl) h

theorem gives_yes {a : I86Arg} {s : List M68Slot} {v : List Int} {b : Bytes} {m' : I86Modrm} (ht : tokens.drop index = ts ++ us) (hm : m.Ok) (hi : a = .i0 → tokens.length = 2)
    (he : I86Enc c m (decide (1 < index)) a ts s v b m') (hr : I86Reads c s v []) (hs : m'.Ok → I86State c m' (rm || a.setsRm) (reg || a.setsReg)) :
    I86Gives c a tokens index m ts rm reg .yes :=
  .yes (.inl rfl) (enc_run he hr (enc_ok he hm) ht hi) (hs (enc_ok he hm))

theorem reg_gives {a : I86Arg} {names : List String} {n : Nat} {t : Str} (hS : I86State c m rm reg) (ht : tokens.drop index = [t] ++ us)
    (ha : (a, names) ∈ [(I86Arg.gb, i86Names8), (.gv, i86Names16), (.sw, i86NamesSeg)]) (hn : I86Name names n t) :
    I86Gives c a tokens index m [t] rm reg (if decide (1 < index) && !rm then .bad else .yes) := by
  have hset : a.setsRm = false ∧ a.setsReg = true ∧ a ≠ .i0 := by
    simp only [List.mem_cons, Prod.mk.injEq, List.not_mem_nil, or_false] at ha
    rcases ha with ⟨rfl, -⟩ | ⟨rfl, -⟩ | ⟨rfl, -⟩ <;> exact ⟨rfl, rfl, by simp⟩
  have hst : ∀ h : ({ m with reg := some n } : I86Modrm).Ok, I86State c { m with reg := some n } (rm || a.setsRm) (reg || a.setsReg) := by
    intro h
    rw [hset.1, hset.2.1]
    exact ⟨h, by simpa using hS.rm, by simp, hS.disp⟩
  split
  · exact .bad
  · next hc =>
    by_cases hi : 1 < index
    · have hrm : rm = true := by simpa [hi] using hc
      obtain ⟨⟨x, hx⟩, y, hy⟩ := hS.rm hrm
      obtain ⟨s, v, b, h1, h2⟩ := build_exists (m := { m with reg := some n }) hx rfl hy hS.disp
      exact gives_yes ht hS.ok (fun e => absurd e hset.2.2) (.regLate ha hn (by simpa using hi) h1) h2 hst
    · exact gives_yes ht hS.ok (fun e => absurd e hset.2.2) (.reg ha hn (by simpa using hi)) .nil hst

theorem rm_gives {a : I86Arg} {names : List String} {n : Nat} {t : Str} (hS : I86State c m rm reg) (ht : tokens.drop index = [t] ++ us)
    (ha : (a, names) ∈ [(I86Arg.eb, i86Names8), (.ev, i86Names16)]) (hn : I86Name names n t) :
    I86Gives c a tokens index m [t] rm reg .yes := by
  have hset : a.setsRm = true ∧ a.setsReg = false ∧ a ≠ .i0 := by
    simp only [List.mem_cons, Prod.mk.injEq, List.not_mem_nil, or_false] at ha
    rcases ha with ⟨rfl, -⟩ | ⟨rfl, -⟩ <;> exact ⟨rfl, rfl, by simp⟩
  obtain ⟨s, v, b, h1, h2⟩ := late_exists (m := { m with mod := some 3, rm := some n }) rfl rfl hS.disp
  refine gives_yes ht hS.ok (fun e => absurd e hset.2.2) (.rm ha hn h1) h2 fun h => ?_
  rw [hset.1, hset.2.1]
  exact ⟨h, fun _ => ⟨⟨_, rfl⟩, _, rfl⟩, by simpa using hS.reg, hS.disp⟩

theorem mem_gives {a : I86Arg} {ts : List Str} {mod n : Nat} {d : Option Str} (hS : I86State c m rm reg) (ht : tokens.drop index = (['['] :: ts ++ [[']']]) ++ us)
    (ha : a ∈ [I86Arg.eb, .ev, .m]) (h1 : [']'] ∉ ts) (h2 : i86GetMod ts = some (mod, n, ts.length, d))
    (h3 : ∀ x, d = some x → ∃ y, m68Number c .disp 16 (x.dropWhile (· == '+')) y) :
    I86Gives c a tokens index m (['['] :: ts ++ [[']']]) rm reg .yes := by
  have hset : a.setsRm = true ∧ a.setsReg = false ∧ a ≠ .i0 := by
    simp only [List.mem_cons, List.not_mem_nil, or_false] at ha
    rcases ha with rfl | rfl | rfl <;> exact ⟨rfl, rfl, by simp⟩
  obtain ⟨s, v, b, h4, h5⟩ := late_exists (m := { m with mod := some mod, rm := some n, disp := d }) rfl rfl h3
  refine gives_yes ht hS.ok (fun e => absurd e hset.2.2) (.mem ha h1 h2 h4) h5 fun h => ?_
  rw [hset.1, hset.2.1]
  exact ⟨h, fun _ => ⟨⟨_, rfl⟩, _, rfl⟩, by simpa using hS.reg, h3⟩

/-- The dictionary is as before. -/
theorem same_gives {a : I86Arg} {s : List M68Slot} {v : List Int} {b : Bytes} (hS : I86State c m rm reg) (ht : tokens.drop index = ts ++ us)
    (hi : a = .i0 → tokens.length = 2) (ha : a.setsRm = false) (ha' : a.setsReg = false)
    (he : I86Enc c m (decide (1 < index)) a ts s v b m) (hr : I86Reads c s v []) : I86Gives c a tokens index m ts rm reg .yes :=
  gives_yes ht hS.ok hi he hr fun _ => by rw [ha, ha', Bool.or_false, Bool.or_false]; exact hS

theorem mem_getD {l : List Str} {n : Nat} (h : n < l.length) : l.getD n [] ∈ l := by
  rw [List.getD_eq_getElem?_getD, List.getElem?_eq_getElem h]
  exact List.getElem_mem h

theorem named_ne {l : List Str} {n : Nat} {x : Str} (h : n < l.length) (hx : x ∉ l) : x ≠ l.getD n [] := fun e => hx (e ▸ mem_getD h)

theorem named_other {names : List String} (hu : ∀ s ∈ names, upper s.toList = s.toList) (hnd : (names.map String.toList).Nodup) {n k : Nat} {t : Str}
    (h : I86Name names k t) (hne : n ≠ k) (hn : n < names.length) : upper t ≠ (names.map String.toList).getD n [] := by
  intro e
  have h1 := (mem_of_name hu hnd h).2
  have hn' : n < (names.map String.toList).length := by simpa using hn
  have h2 : (names.map String.toList).idxOf (upper t) = n := by
    rw [e, List.getD_eq_getElem?_getD, List.getElem?_eq_getElem hn']
    simp only [Option.getD_some]
    exact hnd.idxOf_getElem n hn'
  omega

variable {cl : I86Cls}

theorem gives_reg {a : I86Arg} (ha : a = .gb ∨ a = .gv ∨ a = .sw) (hS : I86State c m rm reg) (hcl : cl.Text c ts) (ht : tokens.drop index = ts ++ us) :
    I86Gives c a tokens index m ts rm reg (a.out cl rm reg (decide (1 < index))) := by
  rcases ha with rfl | rfl | rfl
  · cases hcl with
    | r8 h => exact reg_gives hS ht (by simp) h
    | r16 h => exact gives_no (reg_no ht (no16 h).1)
    | seg h => exact gives_no (reg_no ht (noSeg h).1)
    | mem | dir8 | dir => exact gives_no (reg_no ht noOpen.1)
    | d8 h _ | d16 h _ | p8 h _ _ | p16 h _ _ => exact gives_no (reg_no ht (noFree h).1)
    | far => exact .bad
  · cases hcl with
    | r8 h => exact gives_no (reg_no ht (no8 h).1)
    | r16 h => exact reg_gives hS ht (by simp) h
    | seg h => exact gives_no (reg_no ht (noSeg h).2.1)
    | mem | dir8 | dir => exact gives_no (reg_no ht noOpen.2.1)
    | d8 h _ | d16 h _ | p8 h _ _ | p16 h _ _ => exact gives_no (reg_no ht (noFree h).2.1)
    | far => exact .bad
  · cases hcl with
    | r8 h => exact gives_no (reg_no ht (no8 h).2.1)
    | r16 h => exact gives_no (reg_no ht (no16 h).2.1)
    | seg h => exact reg_gives hS ht (by simp) h
    | mem | dir8 | dir => exact gives_no (reg_no ht noOpen.2.2.1)
    | d8 h _ | d16 h _ | p8 h _ _ | p16 h _ _ => exact gives_no (reg_no ht (noFree h).2.2.1)
    | far => exact .bad

theorem gives_r8 {n : Nat} (hS : I86State c m rm reg) (hcl : cl.Text c ts) (ht : tokens.drop index = ts ++ us) :
    I86Gives c (.r8 n) tokens index m ts rm reg ((I86Arg.r8 n).out cl rm reg (decide (1 < index))) := by
  have key : ∀ {t vs}, tokens.drop index = t :: vs → upper t ∉ i86Regs8 → I86Gives c (.r8 n) tokens index m ts rm reg (if n < 8 then .no else .bad) := by
    intro t vs h1 h2
    split
    · exact gives_no (named_no h1 (named_ne (by assumption) h2))
    · exact .bad
  cases hcl with
  | @r8 k t h =>
    show I86Gives c (.r8 n) tokens index m _ rm reg (if n = k then .yes else .no)
    split
    · next e =>
      subst e
      exact same_gives hS ht (by simp) rfl rfl (.r8 h) .nil
    · next e =>
      by_cases hn : n < 8
      · exact gives_no (named_no ht (named_other names8_upper names8_nodup h e hn))
      · refine gives_no (named_no ht ?_)
        have : (i86Regs8.getD n []) = [] := by
          rw [List.getD_eq_getElem?_getD, List.getElem?_eq_none (by show 8 ≤ n; omega)]
          rfl
        rw [this]
        intro e
        have := (mem_of_name names8_upper names8_nodup h).1
        rw [e] at this
        exact absurd this (by decide)
  | r16 h => exact key ht (no16 h).1
  | seg h => exact key ht (noSeg h).1
  | mem | dir8 | dir => exact key ht noOpen.1
  | d8 h _ | d16 h _ | p8 h _ _ | p16 h _ _ => exact key ht (noFree h).1
  | far => exact .bad

theorem gives_r16 {n : Nat} (hS : I86State c m rm reg) (hcl : cl.Text c ts) (ht : tokens.drop index = ts ++ us) :
    I86Gives c (.r16 n) tokens index m ts rm reg ((I86Arg.r16 n).out cl rm reg (decide (1 < index))) := by
  have key : ∀ {t vs}, tokens.drop index = t :: vs → upper t ∉ i86Regs16 → I86Gives c (.r16 n) tokens index m ts rm reg (if n < 8 then .no else .bad) := by
    intro t vs h1 h2
    split
    · exact gives_no (named_no h1 (named_ne (by assumption) h2))
    · exact .bad
  cases hcl with
  | @r16 k t h =>
    show I86Gives c (.r16 n) tokens index m _ rm reg (if n = k then .yes else .no)
    split
    · next e =>
      subst e
      exact same_gives hS ht (by simp) rfl rfl (.r16 h) .nil
    · next e =>
      by_cases hn : n < 8
      · exact gives_no (named_no ht (named_other names16_upper names16_nodup h e hn))
      · refine gives_no (named_no ht ?_)
        have : (i86Regs16.getD n []) = [] := by
          rw [List.getD_eq_getElem?_getD, List.getElem?_eq_none (by show 8 ≤ n; omega)]
          rfl
        rw [this]
        intro e
        have := (mem_of_name names16_upper names16_nodup h).1
        rw [e] at this
        exact absurd this (by decide)
  | r8 h => exact key ht (no8 h).1
  | seg h => exact key ht (noSeg h).2.1
  | mem | dir8 | dir => exact key ht noOpen.2.1
  | d8 h _ | d16 h _ | p8 h _ _ | p16 h _ _ => exact key ht (noFree h).2.1
  | far => exact .bad

theorem gives_seg {n : Nat} (hS : I86State c m rm reg) (hcl : cl.Text c ts) (ht : tokens.drop index = ts ++ us) :
    I86Gives c (.seg n) tokens index m ts rm reg ((I86Arg.seg n).out cl rm reg (decide (1 < index))) := by
  have key : ∀ {t vs}, tokens.drop index = t :: vs → upper t ∉ i86Segments → I86Gives c (.seg n) tokens index m ts rm reg (if n < 4 then .no else .bad) := by
    intro t vs h1 h2
    split
    · exact gives_no (named_no h1 (named_ne (by assumption) h2))
    · exact .bad
  cases hcl with
  | @seg k t h =>
    show I86Gives c (.seg n) tokens index m _ rm reg (if n = k then .yes else .no)
    split
    · next e =>
      subst e
      exact same_gives hS ht (by simp) rfl rfl (.seg h) .nil
    · next e =>
      by_cases hn : n < 4
      · exact gives_no (named_no ht (named_other namesSeg_upper namesSeg_nodup h e hn))
      · refine gives_no (named_no ht ?_)
        have : (i86Segments.getD n []) = [] := by
          rw [List.getD_eq_getElem?_getD, List.getElem?_eq_none (by show 4 ≤ n; omega)]
          rfl
        rw [this]
        intro e
        have := (mem_of_name namesSeg_upper namesSeg_nodup h).1
        rw [e] at this
        exact absurd this (by decide)
  | r8 h => exact key ht (no8 h).2.1
  | r16 h => exact key ht (no16 h).2.1
  | mem | dir8 | dir => exact key ht noOpen.2.2.1
  | d8 h _ | d16 h _ | p8 h _ _ | p16 h _ _ => exact key ht (noFree h).2.2.1
  | far => exact .bad

theorem dir_no {a : I86Arg} {v : Str} (ha : a ∈ [I86Arg.eb, .ev, .m]) (ht : tokens.drop index = [['['], v, [']']] ++ us) (hv : I86NoReg v) (hc : v ≠ [']']) :
    a.run tokens index m c = (.ok (none, m), []) := by
  have h1 := mem_no (m := m) (c := c) ht hv hc
  have h0 : tokens.drop index = ['['] :: ([v, [']']] ++ us) := ht
  simp only [List.mem_cons, List.not_mem_nil, or_false] at ha
  rcases ha with rfl | rfl | rfl
  · simp only [I86Arg.run]
    unfold i86Either
    rw [H.bind_run (token_run h0 c), if_neg noOpen.1, if_pos (upper_open.2 rfl)]
    exact h1
  · simp only [I86Arg.run]
    unfold i86Either
    rw [H.bind_run (token_run h0 c), if_neg noOpen.2.1, if_pos (upper_open.2 rfl)]
    exact h1
  · simp only [I86Arg.run]
    rw [H.bind_run (token_run h0 c), if_pos rfl]
    exact h1

theorem gives_rm {a : I86Arg} (hsy : c.sy = i8086.sy) (ha : a = .eb ∨ a = .ev ∨ a = .m) (hS : I86State c m rm reg) (hcl : cl.Text c ts) (ht : tokens.drop index = ts ++ us) :
    I86Gives c a tokens index m ts rm reg (a.out cl rm reg (decide (1 < index))) := by
  rcases ha with rfl | rfl | rfl
  · cases hcl with
    | r8 h => exact rm_gives hS ht (by simp) h
    | r16 h => exact gives_no (either_no ht (no16 h).1 (no16 h).2.2.1)
    | seg h => exact gives_no (either_no ht (noSeg h).1 (noSeg h).2.2.1)
    | mem h1 h2 h3 _ => exact mem_gives hS ht (by simp) h1 h2 h3
    | dir8 h hn | dir h hn => exact gives_no (dir_no (by simp) ht h (number_free hsy hn).2.2)
    | d8 h _ | d16 h _ | p8 h _ _ | p16 h _ _ => exact gives_no (either_no ht (noFree h).1 (noFree h).2.2.2.1)
    | far => exact .bad
  · cases hcl with
    | r8 h => exact gives_no (either_no ht (no8 h).1 (no8 h).2.2.1)
    | r16 h => exact rm_gives hS ht (by simp) h
    | seg h => exact gives_no (either_no ht (noSeg h).2.1 (noSeg h).2.2.1)
    | mem h1 h2 h3 _ => exact mem_gives hS ht (by simp) h1 h2 h3
    | dir8 h hn | dir h hn => exact gives_no (dir_no (by simp) ht h (number_free hsy hn).2.2)
    | d8 h _ | d16 h _ | p8 h _ _ | p16 h _ _ => exact gives_no (either_no ht (noFree h).2.1 (noFree h).2.2.2.1)
    | far => exact .bad
  · cases hcl with
    | r8 h => exact gives_no (m_no ht (no8 h).2.2.2.1)
    | r16 h => exact gives_no (m_no ht (no16 h).2.2.2.1)
    | seg h => exact gives_no (m_no ht (noSeg h).2.2.2.1)
    | mem h1 h2 h3 _ => exact mem_gives hS ht (by simp) h1 h2 h3
    | dir8 h hn | dir h hn => exact gives_no (dir_no (by simp) ht h (number_free hsy hn).2.2)
    | d8 h _ | d16 h _ | p8 h _ _ | p16 h _ _ => exact gives_no (m_no ht (noFree h).2.2.2.2)
    | far => exact .bad

theorem number_wide {n : Nat} {use : M68Use} (hn : n = 8) {t : Str} {x : Int} (h : m68Number c use n t x) : m68Number c use 16 t x := by
  obtain ⟨dec, hx, hf⟩ := h
  refine ⟨dec, hx, ?_⟩
  subst hn
  unfold M68Fits at hf ⊢
  split at hf
  · rw [if_pos (by assumption)]
    omega
  · rw [if_neg (by assumption)]
    split at hf
    · rw [if_pos (by assumption)]
      omega
    · rw [if_neg (by assumption)]
      omega

theorem gives_imm {a : I86Arg} (ha : a = .ib ∨ a = .iv) (hS : I86State c m rm reg) (hcl : cl.Text c ts) (ht : tokens.drop index = ts ++ us) :
    I86Gives c a tokens index m ts rm reg (a.out cl rm reg (decide (1 < index))) := by
  have key : ∀ {t vs}, tokens.drop index = t :: vs → ¬ I86Free t → I86Gives c a tokens index m ts rm reg .no := fun h1 h2 => gives_no (imm_no ha h1 h2)
  rcases ha with rfl | rfl
  · cases hcl with
    | r8 h => exact key ht (no8 h).2.2.2.2.2
    | r16 h => exact key ht (no16 h).2.2.2.2.2
    | seg h => exact key ht (noSeg h).2.2.2.2.2
    | mem | dir8 | dir => exact key ht noOpen.2.2.2
    | @d8 t _ h hn =>
      obtain ⟨v, hv⟩ := slot_one (byteSlot_ok t) hn
      exact same_gives hS ht (by simp) rfl rfl (.ib h) hv
    | d16 | p8 | p16 | far => exact .bad
  · cases hcl with
    | r8 h => exact key ht (no8 h).2.2.2.2.2
    | r16 h => exact key ht (no16 h).2.2.2.2.2
    | seg h => exact key ht (noSeg h).2.2.2.2.2
    | mem | dir8 | dir => exact key ht noOpen.2.2.2
    | @d8 t _ h hn =>
      obtain ⟨v, hv⟩ := slot_one (wordSlot_ok t) (number_wide rfl hn)
      exact same_gives hS ht (by simp) rfl rfl (.iv h) hv
    | @d16 t _ h hn =>
      obtain ⟨v, hv⟩ := slot_one (wordSlot_ok t) hn
      exact same_gives hS ht (by simp) rfl rfl (.iv h) hv
    | p8 | p16 | far => exact .bad

theorem gives_rel {a : I86Arg} (hpc : 0 ≤ c.pc) (ha : a = .jb ∨ a = .jv) (hS : I86State c m rm reg) (hcl : cl.Text c ts) (ht : tokens.drop index = ts ++ us) :
    I86Gives c a tokens index m ts rm reg (a.out cl rm reg (decide (1 < index))) := by
  have hne : ∀ d, SlotOk (nearSlot c.pc d) := fun d => ⟨by simp [nearSlot], by simp [nearSlot]; omega⟩
  have hfa : ∀ d, SlotOk (farSlot c.pc d) := fun d => ⟨by simp [farSlot], by simp [farSlot]; omega⟩
  have key : ∀ {t vs}, tokens.drop index = t :: vs → ':' ∈ t ∨ ¬ I86NoReg t → I86Gives c a tokens index m ts rm reg .no := fun h1 h2 => gives_no (rel_no ha h1 h2)
  rcases ha with rfl | rfl
  · cases hcl with
    | r8 h => exact key ht (.inr (no8 h).2.2.2.2.1)
    | r16 h => exact key ht (.inr (no16 h).2.2.2.2.1)
    | seg h => exact key ht (.inr (noSeg h).2.2.2.2.1)
    | far => exact key ht (.inl (by simp))
    | @p8 t _ h hc hn =>
      obtain ⟨v, hv⟩ := slot_one (hne t) hn
      exact same_gives hS ht (by simp) rfl rfl (.jb h.1 hc) hv
    | mem | dir8 | dir | d8 | d16 | p16 => exact .bad
  · cases hcl with
    | r8 h => exact key ht (.inr (no8 h).2.2.2.2.1)
    | r16 h => exact key ht (.inr (no16 h).2.2.2.2.1)
    | seg h => exact key ht (.inr (noSeg h).2.2.2.2.1)
    | far => exact key ht (.inl (by simp))
    | @p8 t _ h hc hn =>
      obtain ⟨v, hv⟩ := slot_one (hfa t) (number_wide rfl hn)
      exact same_gives hS ht (by simp) rfl rfl (.jv h.1 hc) hv
    | @p16 t _ h hc hn =>
      obtain ⟨v, hv⟩ := slot_one (hfa t) hn
      exact same_gives hS ht (by simp) rfl rfl (.jv h.1 hc) hv
    | mem | dir8 | dir | d8 | d16 => exact .bad

theorem direct_mem {ts : List Str} (ht : tokens.drop index = (['['] :: ts ++ [[']']]) ++ us) (hc : [']'] ∉ ts) (h0 : ts ≠ [])
    (h : ts.length ≠ 1 ∨ (∃ t, ts = [t] ∧ ¬ I86NoReg t)) : i86Direct tokens index = none := by
  cases hd : i86Direct tokens index with
  | none => rfl
  | some x =>
    exfalso
    obtain ⟨hx, vs, hv⟩ := direct_ok hd
    rw [ht] at hv
    match ts, hc, h0, h, hv with
    | [], _, h0, _, _ => exact h0 rfl
    | [t], _, _, h, hv =>
      simp at hv
      rcases h with h | ⟨t', e, h⟩
      · simp at h
      · cases e
        exact h (hv.1 ▸ hx)
    | t :: t' :: ts, hc, _, _, hv =>
      simp at hv
      exact hc (by simp [hv.2.1])

theorem getMod_ne {ts : List Str} {q : Nat × Nat × Nat × Option Str} (h : i86GetMod ts = some q) : ts ≠ [] := by
  rintro rfl
  have : i86GetMod [] = none := by decide +kernel
  rw [this] at h
  cases h

theorem far_head {u v : Str} : u ++ ':' :: v ≠ ['['] := by
  intro e
  have : ':' ∈ u ++ ':' :: v := by simp
  rw [e] at this
  exact absurd this (by decide)

theorem gives_direct {a : I86Arg} (ha : a = .ob ∨ a = .ov ∨ a = .mp) (hS : I86State c m rm reg) (hcl : cl.Text c ts) (ht : tokens.drop index = ts ++ us) :
    I86Gives c a tokens index m ts rm reg (a.out cl rm reg (decide (1 < index))) := by
  have key : i86Direct tokens index = none → I86Gives c a tokens index m ts rm reg .no := fun h1 => gives_no (direct_no ha h1)
  rcases ha with rfl | rfl | rfl
  · cases hcl with
    | r8 h => exact key (direct_head ht (no8 h).2.2.2.1)
    | r16 h => exact key (direct_head ht (no16 h).2.2.2.1)
    | seg h => exact key (direct_head ht (noSeg h).2.2.2.1)
    | mem h1 h2 _ h4 => exact key (direct_mem ht h1 (getMod_ne h2) h4)
    | @dir8 t _ h hn =>
      obtain ⟨v, hv⟩ := slot_one (byteSlot_ok t) hn
      exact same_gives hS ht (by simp) rfl rfl (.ob h) hv
    | d8 h _ | d16 h _ | p8 h _ _ | p16 h _ _ => exact key (direct_head ht (noFree h).2.2.2.2)
    | dir | far => exact .bad
  · cases hcl with
    | r8 h => exact key (direct_head ht (no8 h).2.2.2.1)
    | r16 h => exact key (direct_head ht (no16 h).2.2.2.1)
    | seg h => exact key (direct_head ht (noSeg h).2.2.2.1)
    | mem h1 h2 _ h4 => exact key (direct_mem ht h1 (getMod_ne h2) h4)
    | @dir8 t _ h hn =>
      obtain ⟨v, hv⟩ := slot_one (wordSlot_ok t) (number_wide rfl hn)
      exact same_gives hS ht (by simp) rfl rfl (.ov h) hv
    | @dir t _ h hn =>
      obtain ⟨v, hv⟩ := slot_one (wordSlot_ok t) hn
      exact same_gives hS ht (by simp) rfl rfl (.ov h) hv
    | d8 h _ | d16 h _ | p8 h _ _ | p16 h _ _ => exact key (direct_head ht (noFree h).2.2.2.2)
    | far => exact .bad
  · have hp : ∀ {t x}, I86NoReg t → m68Number c .data 16 t x → ts = [['['], t, [']']] → I86Gives c .mp tokens index m ts rm reg (if reg = true then .yes else .bad) := by
      intro t x h hn e
      subst e
      split
      · next hr =>
        obtain ⟨g, hg⟩ := Option.ne_none_iff_exists'.1 (hS.reg.1 hr)
        obtain ⟨s, v, b, h1, h2⟩ := build_exists (m := { m with mod := some 0, rm := some 6 }) rfl hg rfl hS.disp
        obtain ⟨w, hw⟩ := slot_one (wordSlot_ok t) hn
        refine gives_yes ht hS.ok (by simp) (.mp h h1) (h2.append hw) fun hok => ?_
        exact ⟨hok, fun _ => ⟨⟨_, rfl⟩, _, rfl⟩, by simpa [I86Arg.setsReg] using hS.reg, hS.disp⟩
      · exact .bad
    cases hcl with
    | r8 h => exact key (direct_head ht (no8 h).2.2.2.1)
    | r16 h => exact key (direct_head ht (no16 h).2.2.2.1)
    | seg h => exact key (direct_head ht (noSeg h).2.2.2.1)
    | mem h1 h2 _ h4 => exact key (direct_mem ht h1 (getMod_ne h2) h4)
    | dir8 h hn => exact hp h (number_wide rfl hn) rfl
    | dir h hn => exact hp h hn rfl
    | d8 h _ | d16 h _ | p8 h _ _ | p16 h _ _ => exact key (direct_head ht (noFree h).2.2.2.2)
    | far => exact .bad

theorem gives_ap (hS : I86State c m rm reg) (hcl : cl.Text c ts) (ht : tokens.drop index = ts ++ us) :
    I86Gives c .ap tokens index m ts rm reg (I86Arg.ap.out cl rm reg (decide (1 < index))) := by
  cases hcl with
  | r8 h => exact gives_no (ap_no ht (.inr (no8 h).2.2.2.2.1))
  | r16 h => exact gives_no (ap_no ht (.inr (no16 h).2.2.2.2.1))
  | seg h => exact gives_no (ap_no ht (.inr (noSeg h).2.2.2.2.1))
  | p8 _ h _ | p16 _ h _ => exact gives_no (ap_no ht (.inl h))
  | @far u v _ _ h1 h2 h3 h4 =>
    obtain ⟨x, hx⟩ := slot_one (segSlot_ok u) h3
    obtain ⟨y, hy⟩ := slot_one (wordSlot_ok v) h4
    exact same_gives hS ht (by simp) rfl rfl (.ap h1 h2) (hy.append hx)
  | mem | dir8 | dir | d8 | d16 => exact .bad

theorem gives_three (hS : I86State c m rm reg) (hcl : cl.Text c ts) (ht : tokens.drop index = ts ++ us) :
    I86Gives c .three tokens index m ts rm reg (I86Arg.three.out cl rm reg (decide (1 < index))) := by
  have key : ∀ {t}, ts = [t] → I86Gives c .three tokens index m ts rm reg .maybe := by
    intro t e
    subst e
    have hrun : I86Arg.three.run tokens index m c = (.ok (if t = ['3'] then some (1, []) else none, m), []) := by
      simp only [I86Arg.run]
      rw [H.bind_run (token_run ht c)]
      rfl
    by_cases h : t = ['3']
    · rw [if_pos h] at hrun
      exact .yes (.inr rfl) hrun (by simpa [I86Arg.setsRm, I86Arg.setsReg] using hS)
    · rw [if_neg h] at hrun
      exact .no (.inr rfl) hrun
  cases hcl with
  | r8 | r16 | seg | d8 => exact key rfl
  | _ => exact .bad

theorem gives_i0 (hS : I86State c m rm reg) (hcl : cl.Text c ts) (ht : tokens.drop index = ts ++ us) (hi : tokens.length = 2) :
    I86Gives c .i0 tokens index m ts rm reg (I86Arg.i0.out cl rm reg (decide (1 < index))) := by
  cases hcl with
  | @d8 t _ h hn =>
    obtain ⟨v, hv, -⟩ := slot_number (byteSlot_ok t) hn
    rcases H.parseIntegerOrLabel_ok hv with ⟨hv, -⟩ | ⟨-, -, e⟩
    · have hv : parseInteger c.sy c.labels t 8 false = .ok (some v) := hv
      by_cases h10 : v = 10
      · subst h10
        exact same_gives hS ht (fun _ => hi) rfl rfl (.ten hv) .nil
      · exact same_gives hS ht (fun _ => hi) rfl rfl (.i0 hv h10) .nil
    · cases e
  | _ => exact .bad

theorem out_gives (hsy : c.sy = i8086.sy) (hpc : 0 ≤ c.pc) {a : I86Arg} (hS : I86State c m rm reg) (hcl : cl.Text c ts) (ht : tokens.drop index = ts ++ us)
    (hi : a = .i0 → tokens.length = 2) : I86Gives c a tokens index m ts rm reg (a.out cl rm reg (decide (1 < index))) := by
  cases a with
  | gb | gv | sw => exact gives_reg (by simp) hS hcl ht
  | r8 n => exact gives_r8 hS hcl ht
  | r16 n => exact gives_r16 hS hcl ht
  | seg n => exact gives_seg hS hcl ht
  | eb | ev | m => exact gives_rm hsy (by simp) hS hcl ht
  | ib | iv => exact gives_imm (by simp) hS hcl ht
  | jb | jv => exact gives_rel hpc (by simp) hS hcl ht
  | ob | ov | mp => exact gives_direct (by simp) hS hcl ht
  | ap => exact gives_ap hS hcl ht
  | three => exact gives_three hS hcl ht
  | i0 => exact gives_i0 hS hcl ht (hi rfl)

/-! ## rows -/

/-- What a row does with operands. -/
def rowOut : List I86Arg → List I86Cls → Bool → Bool → Bool → I86Out
  | [], _, _, _, _ => .yes
  | _ :: _, [], _, _, _ => .bad
  | a :: as, cl :: cls, rm, reg, late =>
    match a.out cl rm reg late with
    | .yes => rowOut as cls (rm || a.setsRm) (reg || a.setsReg) true
    | .no => .no
    | .maybe => if rowOut as cls (rm || a.setsRm) (reg || a.setsReg) true = .bad then .bad else .maybe
    | .bad => .bad

inductive I86Cls.Texts (c : Ctx) : List I86Cls → List Str → Prop
  | nil : Texts c [] []
  | cons {cl cls ts us} : cl.Text c ts → Texts c cls us → Texts c (cl :: cls) (ts ++ us)

theorem I86Cls.Text.ne_nil (h : cl.Text c ts) : 1 ≤ ts.length := by cases h <;> simp

theorem args_gives (hsy : c.sy = i8086.sy) (hpc : 0 ≤ c.pc) {tokens : List Str} : ∀ {as : List I86Arg} {cls : List I86Cls} {index : Nat} {m : I86Modrm} {ts : List Str}
    {rm reg : Bool} {blob : Bytes}, I86State c m rm reg → I86Cls.Texts c cls ts → 1 ≤ index → tokens.drop index = ts → (I86Arg.i0 ∈ as → tokens.length = 2) →
    rowOut as cls rm reg (decide (1 < index)) ≠ .bad →
    ∃ o, i86Args tokens as index m blob c = (.ok o, []) ∧ (rowOut as cls rm reg (decide (1 < index)) = .yes → ∃ b, o = some b)
  | [], cls, index, m, ts, rm, reg, blob, _, _, _, _, _, _ => ⟨some blob, by simp only [i86Args]; rfl, fun _ => ⟨_, rfl⟩⟩
  | a :: as, [], index, m, ts, rm, reg, blob, _, _, _, _, _, h => absurd rfl h
  | a :: as, cl :: cls, index, m, _, rm, reg, blob, hS, .cons (ts := ts) (us := us) h1 h2, h3, ht, hi, h => by
    have hg := out_gives hsy hpc (a := a) hS h1 ht (fun e => hi (by simp [e]))
    have hlate : decide (1 < index + ts.length) = true := by
      have := h1.ne_nil
      simp
      omega
    have hd : tokens.drop (index + ts.length) = us := by rw [← List.drop_drop, ht, List.drop_left]
    simp only [rowOut] at h ⊢
    generalize ho : a.out cl rm reg (decide (1 < index)) = o at h hg ⊢
    cases hg with
    | @yes _ b m' hy hrun hS' =>
      have hrec : rowOut as cls (rm || a.setsRm) (reg || a.setsReg) true ≠ .bad := by
        rcases hy with rfl | rfl
        · exact h
        · intro e
          simp only [e, if_true] at h
          exact h rfl
      obtain ⟨o', h4, h5⟩ := args_gives hsy hpc (tokens := tokens) (as := as) (index := index + ts.length) (blob := blob ++ b) hS' h2 (by omega) hd
        (fun e => hi (by simp [e])) (by rw [hlate]; exact hrec)
      rw [hlate] at h5
      refine ⟨o', ?_, ?_⟩
      · simp only [i86Args]
        refine lift_bind hrun ?_
        simp only
        have := h1.ne_nil
        rw [if_neg (by omega)]
        exact h4
      · rcases hy with rfl | rfl
        · exact h5
        · intro e
          simp only [if_neg hrec] at e
          cases e
    | @no _ m' hn hrun =>
      refine ⟨none, ?_, ?_⟩
      · simp only [i86Args]
        exact lift_bind hrun rfl
      · intro e
        rcases hn with rfl | rfl
        · cases e
        · simp only at e
          split at e <;> cases e
    | bad => exact absurd rfl h

/-- Are the operands accepted by the first row that does not refuse them? -/
def accepts : List (Nat × List I86Arg) → List I86Cls → Bool
  | [], _ => false
  | (base, args) :: conds, cls =>
    if args.isEmpty then cls.isEmpty
    else if cls.isEmpty then accepts conds cls
    else if args.contains .i0 && !(cls == [.d8]) then false
    else
      match rowOut args cls false (decide (0xFF < base)) false with
      | .yes => true
      | .bad => false
      | _ => accepts conds cls

theorem call_gives (hsy : c.sy = i8086.sy) (hpc : 0 ≤ c.pc) {t : Str} {rest : List Str} {cls : List I86Cls} (hcl : I86Cls.Texts c cls rest) :
    ∀ {conds : List (Nat × List I86Arg)}, (∀ r ∈ conds, r.1 % 256 < 8 ∨ r.1 ≤ 0xFF) → accepts conds cls = true →
    ∃ b, i86Call (t :: rest) conds c = (.ok (some b), [])
  | [], _, h => by cases h
  | (base, args) :: conds, hb, h => by
    have ih := call_gives hsy hpc (t := t) hcl (conds := conds) (fun r hr => hb r (List.mem_cons_of_mem _ hr))
    have hbase := hb _ (List.mem_cons_self ..)
    simp only [accepts] at h
    rw [call_cons]
    have skip : ∀ {rs}, accepts conds cls = true → rowRun (t :: rest) base args c = (.ok none, rs) → rs = [] →
        ∃ b, (rowRun (t :: rest) base args >>= fun r => match r with
          | none => i86Call (t :: rest) conds
          | some b => pure (some b)) c = (.ok (some b), []) := by
      intro rs h1 h2 e
      subst e
      obtain ⟨b, h3⟩ := ih h1
      exact ⟨b, H.bind_of h2 h3⟩
    by_cases h1 : args = []
    · subst h1
      simp only [List.isEmpty_nil, if_true, List.isEmpty_iff] at h
      subst h
      cases hcl
      have hrow : rowRun [t] base [] c = (.ok (some [BitVec.ofNat 8 (rowOp base)]), []) := by
        unfold rowRun
        simp only [if_true, List.length_cons, List.length_nil, byte1]
        rfl
      exact ⟨_, lift_bind hrow rfl⟩
    · rw [if_neg (by simpa using h1)] at h
      by_cases h2 : cls = []
      · subst h2
        simp only [List.isEmpty_nil, if_true] at h
        cases hcl
        refine skip h (rs := []) ?_ rfl
        unfold rowRun
        rw [if_neg h1, if_pos (by simp)]
        rfl
      · rw [if_neg (by simpa using h2)] at h
        split at h
        · cases h
        · next hi =>
          have hlen : 1 ≤ rest.length := by
            cases hcl with
            | nil => exact absurd rfl h2
            | cons h3 _ =>
              have := h3.ne_nil
              simp
              omega
          have hi' : I86Arg.i0 ∈ args → (t :: rest).length = 2 := by
            intro hm
            simp only [Bool.and_eq_true, Bool.not_eq_true', not_and, Bool.not_eq_false, beq_iff_eq, List.contains_iff_mem] at hi
            have e := hi hm
            subst e
            cases hcl with
            | cons h3 h4 =>
              cases h4
              cases h3
              rfl
          have hS : I86State c (rowModrm base) false (decide (0xFF < base)) := by
            refine ⟨row_ok hbase, by simp, ?_, ?_⟩
            · unfold rowModrm
              split <;> simp_all
            · intro d hd
              unfold rowModrm at hd
              split at hd <;> cases hd
          have hne : rowOut args cls false (decide (0xFF < base)) false ≠ .bad := by
            intro e
            rw [e] at h
            cases h
          obtain ⟨o, h3, h4⟩ := args_gives hsy hpc (tokens := t :: rest) (index := 1) (blob := []) hS hcl (Nat.le_refl 1) rfl hi' hne
          have hrow : rowRun (t :: rest) base args c = (.ok (o.map fun full => BitVec.ofNat 8 (rowOp base) :: full), []) := by
            unfold rowRun
            rw [if_neg h1, if_neg (by simp; omega)]
            unfold rowModrm at h3
            cases o with
            | none => exact lift_bind h3 rfl
            | some full =>
              refine lift_bind h3 ?_
              simp only [byte1]
              rfl
          cases o with
          | some full => exact ⟨_, lift_bind hrow rfl⟩
          | none =>
            refine skip ?_ hrow rfl
            cases hro : rowOut args cls false (decide (0xFF < base)) false with
            | yes =>
              obtain ⟨b, e⟩ := h4 hro
              cases e
            | bad => exact absurd hro hne
            | no => rw [hro] at h; exact h
            | maybe => rw [hro] at h; exact h

/-! ## operands the opcode map asks for -/

def clsOf : I86Kind → List I86Cls
  | .eb => .mem :: (List.range 8).map .r8
  | .ev => .mem :: (List.range 8).map .r16
  | .gb => (List.range 8).map .r8
  | .gv => (List.range 8).map .r16
  | .sw => (List.range 4).map .seg
  | .m => [.mem]
  | .mp | .ov => [.dir]
  | .r8 n => [.r8 n]
  | .r16 n => [.r16 n]
  | .seg n => [.seg n]
  | .ib | .const _ => [.d8]
  | .iv => [.d16]
  | .jb => [.p8]
  | .jv => [.p16]
  | .ob => [.dir8]
  | .ap => [.far]

theorem not_free_mem {t : Str} (h : ¬ I86Free t) : t ∈ (i86Regs8 ++ i86Regs16 ++ i86Segments).flatMap variants ++ [['['], [']']] := by
  rw [free_iff, Bool.not_eq_false] at h
  simp only [Bool.or_eq_true, decide_eq_true_eq] at h
  rcases h with (hb | rfl) | rfl
  · unfold i86IsReg at hb
    rw [decide_eq_true_eq] at hb
    exact List.mem_append_left _ (List.mem_flatMap.2 ⟨_, hb, mem_variants (names_plain _ hb) rfl⟩)
  · simp
  · simp

theorem names_no_plus : ∀ t ∈ (i86Regs8 ++ i86Regs16 ++ i86Segments).flatMap variants ++ [['['], [']']], t.dropWhile (· == '+') = t := by decide +kernel

theorem names_no_minus : ∀ t ∈ (i86Regs8 ++ i86Regs16 ++ i86Segments).flatMap variants ++ [['['], [']']],
    (internalParseInteger i8086.sy (getMathFormula ('-' :: t)).body).toOption = some none := by decide +kernel

theorem plus_free (hsy : c.sy = i8086.sy) {use : M68Use} {n : Nat} {v : Str} {x : Int} (h : m68Number c use n (v.dropWhile (· == '+')) x) : I86Free v := by
  refine Classical.byContradiction fun hf => ?_
  rw [names_no_plus v (not_free_mem hf)] at h
  exact hf (number_free hsy h)

theorem minus_free (hsy : c.sy = i8086.sy) {use : M68Use} {n : Nat} {v : Str} {x : Int} (h : m68Number c use n ('-' :: v) x) : I86Free v := by
  refine Classical.byContradiction fun hf => ?_
  have hn := names_no_minus v (not_free_mem hf)
  obtain ⟨dec, ⟨lit, h1, -⟩, -⟩ := h
  rw [hsy] at h1
  rw [h1] at hn
  simp [Except.toOption] at hn

theorem base_close {b : Nat} {ts : List Str} (h : I86BaseText b ts) : [']'] ∉ ts := by
  intro hm
  have h1 := base_iff.1 h
  have h2 : ∀ p ∈ i86Bases, upper [']'] ∉ p.1 := by decide
  exact h2 _ h1 (List.mem_map.2 ⟨_, hm, rfl⟩)

theorem base_text {b : Nat} {ts : List Str} (h : I86BaseText b ts) : ts.length ≠ 1 ∨ (∃ t, ts = [t] ∧ ¬ I86NoReg t) := by
  cases h with
  | two => simp
  | one hp hx =>
    have : ∀ q ∈ [(4, "SI"), (5, "DI"), (6, "BP"), (7, "BX")], ∃ n < 8, i86Names16[n]? = some q.2 := by decide
    obtain ⟨n, -, hn⟩ := this _ hp
    exact .inr ⟨_, rfl, fun hno => (hno n).2.1 ⟨_, hn, hx⟩⟩

theorem takes_cls (hsy : c.sy = i8086.sy) {k : I86Kind} (h : I86Takes (m68Number c) k ts) : ∃ cl ∈ clsOf k, cl.Text c ts := by
  have hd : ∀ {b : Nat} {ts : List Str} {s v : Str} {x : Int}, I86BaseText b ts → s = ['+'] ∨ s = ['-'] → I86Free v → m68Number c .disp 16 ((s ++ v).dropWhile (· == '+')) x →
      I86Cls.Text c .mem (['['] :: (ts ++ [s, v]) ++ [[']']]) := by
    intro b ts s v x hb hs hv hx
    refine .mem (mod := 2) (rm := b) (d := some (s ++ v)) ?_ (by rw [getMod_disp hb hs hv]; simp) ?_ ?_
    · intro hm
      rcases List.mem_append.1 hm with hm | hm
      · exact base_close hb hm
      · simp only [List.mem_cons, List.not_mem_nil, or_false] at hm
        rcases hm with e | e
        · rcases hs with rfl | rfl <;> simp at e
        · exact hv.2.2 e.symm
    · intro y e
      cases e
      exact ⟨x, hx⟩
    · cases hb <;> simp
  cases h with
  | reg8 hk hn =>
    rcases hk with rfl | rfl | rfl
    · exact ⟨.r8 _, by simp [clsOf]; exact name_lt hn, .r8 hn⟩
    · exact ⟨.r8 _, by simp [clsOf]; exact name_lt hn, .r8 hn⟩
    · exact ⟨.r8 _, by simp [clsOf], .r8 hn⟩
  | reg16 hk hn =>
    rcases hk with rfl | rfl | rfl
    · exact ⟨.r16 _, by simp [clsOf]; exact name_lt hn, .r16 hn⟩
    · exact ⟨.r16 _, by simp [clsOf]; exact name_lt hn, .r16 hn⟩
    · exact ⟨.r16 _, by simp [clsOf], .r16 hn⟩
  | seg hk hn =>
    rcases hk with rfl | rfl
    · exact ⟨.seg _, by simp [clsOf]; exact name_lt hn, .seg hn⟩
    · exact ⟨.seg _, by simp [clsOf], .seg hn⟩
  | mem hk hb =>
    refine ⟨.mem, ?_, .mem (base_close hb) (getMod_plain hb) (by simp) (base_text hb)⟩
    simp only [List.mem_cons, List.not_mem_nil, or_false] at hk
    rcases hk with rfl | rfl | rfl <;> simp [clsOf]
  | plus hk hb hx =>
    refine ⟨.mem, ?_, by simpa using hd hb (.inl rfl) (plus_free hsy hx) (x := _) hx⟩
    simp only [List.mem_cons, List.not_mem_nil, or_false] at hk
    rcases hk with rfl | rfl | rfl <;> simp [clsOf]
  | minus hk hb hx =>
    refine ⟨.mem, ?_, by simpa using hd hb (.inr rfl) (minus_free hsy hx) (x := _) hx⟩
    simp only [List.mem_cons, List.not_mem_nil, or_false] at hk
    rcases hk with rfl | rfl | rfl <;> simp [clsOf]
  | addr8 h hx => exact ⟨.dir8, by simp [clsOf], .dir8 h hx⟩
  | addr16 hk h hx =>
    refine ⟨.dir, ?_, .dir h hx⟩
    simp only [List.mem_cons, List.not_mem_nil, or_false] at hk
    rcases hk with rfl | rfl <;> simp [clsOf]
  | imm8 hx => exact ⟨.d8, by simp [clsOf], .d8 (number_free hsy hx) hx⟩
  | imm16 hx => exact ⟨.d16, by simp [clsOf], .d16 (number_free hsy hx) hx⟩
  | const hx => exact ⟨.d8, by simp [clsOf], .d8 (number_free hsy hx) hx⟩
  | rel8 h hx => exact ⟨.p8, by simp [clsOf], .p8 (number_free hsy hx) h hx⟩
  | rel16 h hx => exact ⟨.p16, by simp [clsOf], .p16 (number_free hsy hx) h hx⟩
  | far h1 h2 h3 h4 => exact ⟨.far, by simp [clsOf], .far h1 h2 h3 h4⟩

/-- Do all the ways to write the operands of these kinds pass? -/
def allCls : List I86Kind → List I86Cls → (List I86Cls → Bool) → Bool
  | [], acc, p => p acc.reverse
  | k :: ks, acc, p => (clsOf k).all fun cl => allCls ks (cl :: acc) p

theorem allCls_spec (hsy : c.sy = i8086.sy) {p : List I86Cls → Bool} : ∀ {ks : List I86Kind} {acc : List I86Cls} {ts : List Str}, allCls ks acc p = true → I86TakesAll (m68Number c) ks ts →
    ∃ cls, I86Cls.Texts c cls ts ∧ p (acc.reverse ++ cls) = true
  | [], acc, _, h, .nil => ⟨[], .nil, by simpa [allCls] using h⟩
  | k :: ks, acc, _, h, .cons h1 h2 => by
    obtain ⟨cl, hm, ht⟩ := takes_cls hsy h1
    simp only [allCls, List.all_eq_true] at h
    obtain ⟨cls, h3, h4⟩ := allCls_spec hsy (h cl hm) h2
    exact ⟨cl :: cls, .cons ht h3, by simpa using h4⟩

/-- The rows of the table accept whatever the opcode map has. -/
def opAccepts (op : Nat) : Bool :=
  (List.range 8).all fun g =>
    match shape86 op g with
    | none => true
    | some (name, kinds) =>
      let conds := i86Conds name.toList
      if kinds = [.ov, .r16 0] then accepts conds [.dir8, .r16 0] else if kinds = [.ev, .iv] then true else allCls kinds [] (accepts conds)

theorem accepts0 : ∀ k : Nat, k < 64 → opAccepts (0 + k) = true := by decide +kernel
theorem accepts1 : ∀ k : Nat, k < 64 → opAccepts (64 + k) = true := by decide +kernel
theorem accepts2 : ∀ k : Nat, k < 32 → opAccepts (128 + k) = true := by decide +kernel
theorem accepts3 : ∀ k : Nat, k < 24 → opAccepts (160 + k) = true := by decide +kernel
theorem accepts4 : ∀ k : Nat, k < 16 → opAccepts (184 + k) = true := by decide +kernel
theorem accepts5 : ∀ k : Nat, k < 32 → opAccepts (200 + k) = true := by decide +kernel
theorem accepts6 : ∀ k : Nat, k < 24 → opAccepts (232 + k) = true := by decide +kernel

theorem accepts_all {op : Nat} (h : op < 256) : opAccepts op = true := by
  by_cases h0 : op < 64
  · have := accepts0 (op - 0) (by omega)
    rwa [show 0 + (op - 0) = op by omega] at this
  by_cases h1 : op < 128
  · have := accepts1 (op - 64) (by omega)
    rwa [show 64 + (op - 64) = op by omega] at this
  by_cases h2 : op < 160
  · have := accepts2 (op - 128) (by omega)
    rwa [show 128 + (op - 128) = op by omega] at this
  by_cases h3 : op < 184
  · have := accepts3 (op - 160) (by omega)
    rwa [show 160 + (op - 160) = op by omega] at this
  by_cases h4 : op < 200
  · have := accepts4 (op - 184) (by omega)
    rwa [show 184 + (op - 184) = op by omega] at this
  by_cases h5 : op < 232
  · have := accepts5 (op - 200) (by omega)
    rwa [show 200 + (op - 200) = op by omega] at this
  have := accepts6 (op - 232) (by omega)
  rwa [show 232 + (op - 232) = op by omega] at this

theorem table_upper : ∀ r ∈ i86Table, upper r.2.1.toList = r.2.1.toList := by decide +kernel

theorem name_upper {name : String} (h : i86Conds name.toList ≠ []) : upper name.toList = name.toList := by
  cases hc : i86Conds name.toList with
  | nil => exact absurd hc h
  | cons a l =>
    obtain ⟨r, hr, -, -, e⟩ := conds_row (key := name.toList) (base := a.1) (args := a.2) (by rw [hc]; simp)
    rw [← e]
    exact table_upper r hr

end Necro
