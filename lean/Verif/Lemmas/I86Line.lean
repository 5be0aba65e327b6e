import Verif.Lemmas.I86Run
/-!
# Lines of 8086 assembly
-/

namespace Necro
open Spec

/-! ## tokens that stand for numbers are neither registers nor brackets -/

/-- The spellings of a name. -/
def variants : Str → List Str
  | [] => [[]]
  | c :: cs => (variants cs).flatMap fun v => [c :: v, c.toLower :: v]

theorem mem_variants : ∀ {t n : Str}, (n.all fun c => !c.isLower) = true → upper t = n → t ∈ variants n
  | [], n, _, h => by
    have : n = [] := h.symm
    subst this
    simp [variants]
  | c :: t, [], _, h => by simp [upper] at h
  | c :: t, r :: n, hn, h => by
    simp only [List.all_cons, Bool.and_eq_true, Bool.not_eq_true'] at hn
    simp only [upper, List.map_cons, List.cons.injEq] at h
    have ih := mem_variants (t := t) (n := n) hn.2 h.2
    simp only [variants, List.mem_flatMap]
    refine ⟨t, ih, ?_⟩
    rcases toUpper_eq hn.1 h.1 with rfl | rfl
    · simp
    · simp

theorem names_plain : ∀ n ∈ i86Regs8 ++ i86Regs16 ++ i86Segments, (n.all fun c => !c.isLower) = true := by decide +kernel

theorem names_no_number : ∀ t ∈ (i86Regs8 ++ i86Regs16 ++ i86Segments).flatMap variants ++ [['['], [']']],
    (internalParseInteger i8086.sy (getMathFormula t).body).toOption = some none := by decide +kernel

theorem value_free {ls : Labels} {t : Str} {x : Int} {dec : Bool} (h : TokenValue i8086.sy ls t x dec) : I86Free t := by
  rw [free_iff]
  rw [Bool.eq_false_iff]
  intro hb
  have hm : t ∈ (i86Regs8 ++ i86Regs16 ++ i86Segments).flatMap variants ++ [['['], [']']] := by
    simp only [Bool.or_eq_true, decide_eq_true_eq] at hb
    rcases hb with (hb | rfl) | rfl
    · unfold i86IsReg at hb
      rw [decide_eq_true_eq] at hb
      exact List.mem_append_left _ (List.mem_flatMap.2 ⟨_, hb, mem_variants (names_plain _ hb) rfl⟩)
    · simp
    · simp
  have hn := names_no_number t hm
  obtain ⟨lit, h1, -⟩ := h
  rw [h1] at hn
  simp [Except.toOption] at hn

theorem number_free {c : Ctx} (hsy : c.sy = i8086.sy) {use : M68Use} {n : Nat} {t : Str} {x : Int} (h : m68Number c use n t x) : I86Free t := by
  obtain ⟨dec, h, -⟩ := h
  rw [hsy] at h
  exact value_free h

theorem three_value {c : Ctx} (hsy : c.sy = i8086.sy) : I86Free ['3'] ∧ m68Number c .data 8 ['3'] 3 := by
  have h1 : (internalParseInteger i8086.sy (getMathFormula ['3']).body).toOption = some (some (3, true)) := by decide +kernel
  have h2 : (getMathFormula ['3']).pre = [] ∧ (getMathFormula ['3']).post = [] := by decide +kernel
  have h3 : internalParseInteger i8086.sy (getMathFormula ['3']).body = .ok (some (3, true)) := by
    cases h : internalParseInteger i8086.sy (getMathFormula ['3']).body with
    | error e => rw [h] at h1; cases h1
    | ok v => rw [h] at h1; simp only [Except.toOption, Option.some.injEq] at h1; rw [h1]
  have h : m68Number c .data 8 ['3'] 3 := by
    refine ⟨true, ⟨3, by rw [hsy]; exact h3, ?_⟩, by unfold M68Fits; decide⟩
    rw [h2.1, h2.2]
    rfl
  exact ⟨number_free hsy h, h⟩

/-! ## the row of a line -/

theorem conds_row {key : Str} {base : Nat} {args : List I86Arg} (h : (base, args) ∈ i86Conds key) :
    ∃ r ∈ i86Table, r.1 = base ∧ r.2.2 = args ∧ r.2.1.toList = key := by
  unfold i86Conds at h
  obtain ⟨r, hr, e⟩ := List.mem_map.1 h
  rw [List.mem_filter] at hr
  simp only [Prod.mk.injEq] at e
  exact ⟨r, hr.1, e.1, e.2, by simpa using hr.2⟩

theorem row_conds {r : Nat × String × List I86Arg} (h : r ∈ i86Table) : (r.1, r.2.2) ∈ i86Conds r.2.1.toList := by
  unfold i86Conds
  exact List.mem_map.2 ⟨r, List.mem_filter.2 ⟨h, by simp⟩, rfl⟩

/-- What stands before the first occurrence stands before any. -/
theorem before_first {α : Type} [DecidableEq α] {x y : α} : ∀ {l pre post : List α}, l = pre ++ x :: post → y ∈ l.takeWhile (fun z => !decide (z = x)) → y ∈ pre
  | _, [], post, rfl, h => by simp at h
  | _, a :: pre, post, rfl, h => by
    rw [List.cons_append, List.takeWhile_cons] at h
    split at h
    · rcases List.mem_cons.1 h with rfl | h
      · exact List.mem_cons_self ..
      · exact List.mem_cons_of_mem _ (before_first rfl h)
    · cases h

theorem pop_before : ∀ n < 8, ((0x58 + n, [I86Arg.r16 n]) : Nat × List I86Arg) ∈ (i86Conds "POP".toList).takeWhile (fun z => !decide (z = (0x8F, [I86Arg.ev]))) := by
  decide +kernel

theorem mov8_before : ∀ n < 8, ((0xB0 + n, [I86Arg.r8 n, .ib]) : Nat × List I86Arg) ∈
    (i86Conds "MOV".toList).takeWhile (fun z => !decide (z = (0xC6, [I86Arg.eb, .ib]))) := by
  decide +kernel

theorem mov16_before : ∀ n < 8, ((0xB8 + n, [I86Arg.r16 n, .iv]) : Nat × List I86Arg) ∈
    (i86Conds "MOV".toList).takeWhile (fun z => !decide (z = (0xC7, [I86Arg.ev, .iv]))) := by
  decide +kernel

theorem odd_row : ∀ r ∈ i86Table, r.1 ∈ oddRows → (r = (0x8F, "POP", [.ev])) ∨ (r = (0xC6, "MOV", [.eb, .ib])) ∨ (r = (0xC7, "MOV", [.ev, .iv])) := by
  decide +kernel

theorem late_none {m : I86Modrm} {s : List M68Slot} {v : List Int} {b : Bytes} (hm : m.reg = none) (h : I86LateBuild m s v b) : s = [] ∧ v = [] ∧ b = [] := by
  unfold I86LateBuild at h
  rwa [if_pos hm] at h

theorem inv_ib {c : Ctx} {m m' : I86Modrm} {late : Bool} {ts : List Str} {s : List M68Slot} {v : List Int} {b : Bytes} (h : I86Enc c m late .ib ts s v b m') :
    ∃ t x, I86Free t ∧ ts = [t] ∧ s = [byteSlot t] ∧ v = [x] := by
  cases h with
  | ib hf => exact ⟨_, _, hf, rfl, rfl, rfl⟩
  | reg hn => simp at hn
  | regLate hn => simp at hn
  | rm hn => simp at hn
  | mem hn => simp at hn

theorem inv_iv {c : Ctx} {m m' : I86Modrm} {late : Bool} {ts : List Str} {s : List M68Slot} {v : List Int} {b : Bytes} (h : I86Enc c m late .iv ts s v b m') :
    ∃ t x, I86Free t ∧ ts = [t] ∧ s = [wordSlot t] ∧ v = [x] := by
  cases h with
  | iv hf => exact ⟨_, _, hf, rfl, rfl, rfl⟩
  | reg hn => simp at hn
  | regLate hn => simp at hn
  | rm hn => simp at hn
  | mem hn => simp at hn

theorem inv_either {c : Ctx} {m m' : I86Modrm} {late : Bool} {ts : List Str} {s : List M68Slot} {v : List Int} {b : Bytes} {a : I86Arg} {names : List String}
    (ha : (a, names) ∈ [(I86Arg.eb, i86Names8), (.ev, i86Names16)]) (hm : m.reg = none) (h : I86Enc c m late a ts s v b m') :
    (∃ n t, n < 8 ∧ I86Name names n t ∧ ts = [t] ∧ s = [] ∧ v = []) ∨ (∃ us, ts = ['['] :: us ++ [[']']]) := by
  simp only [List.mem_cons, Prod.mk.injEq, List.not_mem_nil, or_false] at ha
  rcases ha with ⟨rfl, rfl⟩ | ⟨rfl, rfl⟩ <;> cases h with
  | reg hn => simp at hn
  | regLate hn => simp at hn
  | @rm _ names n t _ _ _ hn hname hb =>
    simp at hn
    subst hn
    obtain ⟨rfl, rfl, rfl⟩ := late_none (m := { m with mod := some 3, rm := some n }) hm hb
    exact .inl ⟨n, t, name_lt hname, hname, rfl, rfl, rfl⟩
  | mem hn hno hg hb => exact .inr ⟨_, rfl⟩

/-- A line accepted by one of the rows that leave the operand out writes memory. -/
theorem odd_rows {t : Str} {ts us : List Str} {c : Ctx} {r : Nat × String × List I86Arg} (hr : r ∈ i86Table) (ho : r.1 ∈ oddRows) (ht : eqNoCase t r.2.1.toList)
    {pre post : List (Nat × List I86Arg)} (hc : i86Conds r.2.1.toList = pre ++ (r.1, r.2.2) :: post)
    (hpre : ∀ q ∈ pre, ∃ rs, rowRun (t :: (ts ++ us)) q.1 q.2 c = (.ok none, rs)) {s : List M68Slot} {v : List Int} {b : Bytes} {rels : List Reloc}
    (h : I86Encs c (rowModrm r.1) false r.2.2 ts s v b) (hreads : I86Reads c s v rels) (value : M68Use → Nat → Str → Int → Prop) :
    I86Odd value t (ts ++ us) := by
  rcases odd_row r hr ho with rfl | rfl | rfl
  · simp only at h hc ht
    cases h with
    | @cons _ _ _ _ ts1 _ s1 _ v1 _ b1 _ m' h1 h2 =>
      cases h2
      rcases inv_either (names := i86Names16) (by simp) rfl h1 with ⟨n, t1, hlt, hname, rfl, rfl, rfl⟩ | ⟨vs, rfl⟩
      · exfalso
        obtain ⟨rs, h3⟩ := hpre _ (before_first hc (pop_before n hlt))
        have h4 := row_run (t := t) (us := us) (args := [.r16 n]) (base := 0x58 + n) (c := c) (by simp) (by omega)
          (.cons (m' := rowModrm (0x58 + n)) (.r16 hname) .nil) hreads (by simp)
        rw [h4] at h3
        cases h3
      · exact .pop ht rfl
  · simp only at h hc ht
    cases h with
    | @cons _ _ _ _ ts1 _ s1 _ v1 _ b1 _ m' h1 h2 =>
      cases h2 with
      | @cons _ _ _ _ ts2 _ s2 _ v2 _ b2 _ m'' h2 h2' =>
        cases h2'
        obtain ⟨t2, x, hf, rfl, rfl, rfl⟩ := inv_ib h2
        rcases inv_either (names := i86Names8) (by simp) rfl h1 with ⟨n, t1, hlt, hname, rfl, rfl, rfl⟩ | ⟨vs, rfl⟩
        · exfalso
          obtain ⟨rs, h3⟩ := hpre _ (before_first hc (mov8_before n hlt))
          have h4 := row_run (t := t) (us := us) (args := [.r8 n, .ib]) (base := 0xB0 + n) (c := c) (by simp) (by omega)
            (.cons (m' := rowModrm (0xB0 + n)) (.r8 hname) (.cons (m' := rowModrm (0xB0 + n)) (.ib hf) .nil)) hreads (by simp)
          rw [h4] at h3
          cases h3
        · exact .store (ts := vs) (t := t2) (post := us) ht (by simp) hf
  · simp only at h hc ht
    cases h with
    | @cons _ _ _ _ ts1 _ s1 _ v1 _ b1 _ m' h1 h2 =>
      cases h2 with
      | @cons _ _ _ _ ts2 _ s2 _ v2 _ b2 _ m'' h2 h2' =>
        cases h2'
        obtain ⟨t2, x, hf, rfl, rfl, rfl⟩ := inv_iv h2
        rcases inv_either (names := i86Names16) (by simp) rfl h1 with ⟨n, t1, hlt, hname, rfl, rfl, rfl⟩ | ⟨vs, rfl⟩
        · exfalso
          obtain ⟨rs, h3⟩ := hpre _ (before_first hc (mov16_before n hlt))
          have h4 := row_run (t := t) (us := us) (args := [.r16 n, .iv]) (base := 0xB8 + n) (c := c) (by simp) (by omega)
            (.cons (m' := rowModrm (0xB8 + n)) (.r16 hname) (.cons (m' := rowModrm (0xB8 + n)) (.iv hf) .nil)) hreads (by simp)
          rw [h4] at h3
          cases h3
        · exact .store (ts := vs) (t := t2) (post := us) ht (by simp) hf

/-- How a line was assembled. -/
structure I86Row (c : Ctx) (t : Str) (rest : List Str) (blob : Bytes) (rels : List Reloc) (r : Nat × String × List I86Arg) (ts us : List Str)
    (s : List M68Slot) (v : List Int) (b : Bytes) (stale own : List Reloc) : Prop where
  row : r ∈ i86Table
  name : eqNoCase t r.2.1.toList
  refs : rels = stale ++ own
  text : rest = ts ++ us
  code : blob = BitVec.ofNat 8 (rowOp r.1) :: b
  encs : I86Encs c (rowModrm r.1) false r.2.2 ts s v b
  reads : I86Reads c s v own
  single : I86Arg.i0 ∈ r.2.2 → us = []
  alone : r.2.2 = [] → rest = []
  odd : r.1 ∈ oddRows → ∀ value, I86Odd value t rest
  left : ∀ x ∈ stale, ∃ q ∈ i86Table, eqNoCase t q.2.1.toList ∧ ∃ rs, rowRun (t :: rest) q.1 q.2.2 c = (.ok none, rs) ∧ x ∈ rs

theorem i86_handler {key : Str} {f : List Str → H (Option Bytes)} (h : i8086.instrs key = some (.handler f)) :
    f = fun tokens => i86Call tokens (i86Conds key) := by
  have h' : (match i86Conds key with
    | [] => none
    | conds => some (InstrDef.handler fun tokens => i86Call tokens conds)) = some (InstrDef.handler f) := h
  cases hc : i86Conds key with
  | nil => rw [hc] at h'; cases h'
  | cons a l =>
    rw [hc] at h'
    cases h'
    rfl

theorem line_row {c : Ctx} {t : Str} {rest : List Str} {blob : Bytes} {rels : List Reloc} (h : Emits i8086 c t rest blob rels) :
    ∃ r ts us s v b stale own, I86Row c t rest blob rels r ts us s v b stale own := by
  cases h with
  | fixed h =>
    have h' : (match i86Conds (i8086.key t) with
      | [] => none
      | conds => some (InstrDef.handler fun tokens => i86Call tokens conds)) = some (InstrDef.fixed blob) := h
    cases hc : i86Conds (i8086.key t) with
    | nil => rw [hc] at h'; cases h'
    | cons a l => rw [hc] at h'; cases h'
  | handler h hf =>
    have e := i86_handler h
    subst e
    obtain ⟨pre, base, args, post, stale, own, h1, rfl, h2, h3, h4⟩ := call_row hf
    obtain ⟨r, hr, rfl, rfl, hk⟩ := conds_row (key := i8086.key t) (base := base) (args := args) (by rw [h1]; simp)
    have hname : eqNoCase t r.2.1.toList := by
      have : upper t = r.2.1.toList := hk.symm
      rw [← this]
      exact (upper_idem t).symm
    have hta := table_args r hr
    have hpre : ∀ q ∈ pre, ∃ rs, rowRun (t :: rest) q.1 q.2 c = (.ok none, rs) := fun q hq => by
      obtain ⟨rs, h5, -⟩ := h3 q hq
      exact ⟨rs, h5⟩
    have hst : ∀ x ∈ stale, ∃ q ∈ i86Table, eqNoCase t q.2.1.toList ∧ ∃ rs, rowRun (t :: rest) q.1 q.2.2 c = (.ok none, rs) ∧ x ∈ rs := by
      intro x hx
      obtain ⟨q, hq, rs, h5, h6⟩ := h4 x hx
      obtain ⟨q', hq', e1, e2, e3⟩ := conds_row (key := i8086.key t) (base := q.1) (args := q.2) (by rw [h1]; simp [hq])
      refine ⟨q', hq', ?_, rs, by rw [e1, e2]; exact h5, h6⟩
      have : upper t = q'.2.1.toList := e3.symm
      rw [← this]
      exact (upper_idem t).symm
    have hc : i86Conds r.2.1.toList = pre ++ (r.1, r.2.2) :: post := by rw [hk]; exact h1
    rcases row_enc hta.1 hta.2 h2 with ⟨ha, rfl, hb, rfl⟩ | ⟨ts, us, s, v, b, hne, rfl, hb, he, hr', hi⟩
    · have he : I86Encs c (rowModrm r.1) false r.2.2 [] [] [] [] := by rw [ha]; exact .nil
      refine ⟨r, [], [], [], [], [], stale, [], hr, hname, rfl, rfl, hb, he, .nil, fun _ => rfl, fun _ => rfl, ?_, hst⟩
      intro ho
      exact odd_rows (ts := []) (us := []) (rels := []) hr ho hname hc hpre he .nil
    · refine ⟨r, ts, us, s, v, b, stale, own, hr, hname, rfl, rfl, hb, he, hr', hi, fun h => absurd h hne, ?_, hst⟩
      intro ho
      exact odd_rows hr ho hname hc hpre he hr'

/-! ## what a line becomes -/

/-- What the numbers of a line must satisfy. -/
structure I86Reading (c : Ctx) (value : M68Use → Nat → Str → Int → Prop) : Prop where
  num : ∀ t x, parseInteger c.sy c.labels t 8 false = .ok (some x) → I86Free t ∧ ∃ y, value .data 8 t y ∧ x % 256 = y % 256
  three : I86Free ['3'] ∧ value .data 8 ['3'] 3
  range : ∀ t y, value .data 8 t y → -128 ≤ y ∧ y < 256
  wide : ∀ t y, value .data 8 t y → 0 ≤ y → value .data 16 t y

theorem table_names : ∀ r ∈ i86Table, (I86Arg.ob ∈ r.2.2 → r.2.1 = "MOV") ∧ (I86Arg.i0 ∈ r.2.2 → (r.2.1 = "AAM" ∨ r.2.1 = "AAD") ∧ r.2.2 = [.i0]) ∧
    (r.2.2 = [] → r.1 ∈ [0xD4, 0xD5] → r.2.1 = "AAM" ∨ r.2.1 = "AAD") ∧ (isShift r.2.1 = true → (r.2.1 = "SHL" ∨ r.2.1 = "SHR") ∧ (r.2.2 = [.eb] ∨ r.2.2 = [.ev]) ∧ 0xFF < r.1) := by
  decide +kernel

theorem table_some : ∀ r ∈ i86Table, r.1 ∉ oddRows → r.2.2 ≠ [] → ∀ g < 8, ((shape86 (rowOp r.1 % 256) g).any fun p => p.2.isEmpty) = false := by decide +kernel

theorem operands86_length {mr : Option (Nat × I86Rm)} : ∀ {ks : List I86Kind} {bs bs' : Bytes} {os : List I86Opnd}, operands86 mr ks bs = some (os, bs') →
    os.length = ks.length
  | [], bs, bs', os, h => by
    simp only [operands86, Option.some.injEq, Prod.mk.injEq] at h
    rw [← h.1]
    rfl
  | k :: ks, bs, bs', os, h => by
    simp only [operands86, Option.bind_eq_bind, Option.bind_eq_some_iff] at h
    obtain ⟨⟨o, b1⟩, h1, ⟨os', b2⟩, h2, h3⟩ := h
    cases h3
    simp [operands86_length h2]

theorem disasm_none {op : Byte} {b : Bytes} {name : String} (h : disasm86 (op :: b) = some ⟨name, []⟩) : ∃ g < 8, ((shape86 op.toNat g).any fun p => p.2.isEmpty) = true := by
  unfold disasm86 at h
  cases hd : decode86 (op :: b) with
  | none => rw [hd] at h; cases h
  | some p =>
    obtain ⟨i, bs⟩ := p
    rw [hd] at h
    cases bs with
    | cons x y => cases h
    | nil =>
      simp only [Option.some.injEq] at h
      subst h
      simp only [decode86, Option.bind_eq_bind, Option.bind_eq_some_iff] at hd
      obtain ⟨⟨n, ks⟩, h1, h2⟩ := hd
      have hk : ks.isEmpty = true := by
        split at h2
        · simp only [Option.bind_eq_some_iff] at h2
          obtain ⟨⟨g, rm, b1⟩, -, ⟨os, b2⟩, h3, h4⟩ := h2
          cases h4
          have := operands86_length h3
          rw [List.isEmpty_iff]
          exact List.eq_nil_of_length_eq_zero this.symm
        · simp only [Option.bind_eq_some_iff] at h2
          obtain ⟨⟨os, b2⟩, h3, h4⟩ := h2
          cases h4
          have := operands86_length h3
          rw [List.isEmpty_iff]
          exact List.eq_nil_of_length_eq_zero this.symm
      refine ⟨_, ?_, by rw [h1]; exact hk⟩
      cases b with
      | nil => exact Nat.zero_lt_succ _
      | cons x y => exact mid_lt x

theorem ob_al : ∀ r ∈ i86Table, I86Arg.ob ∈ r.2.2 → r.2.2 = [.r8 0, .ob] ∨ r.2.2 = [.ob, .r8 0] := by decide +kernel

theorem inv_r8 {c : Ctx} {m m' : I86Modrm} {n : Nat} {late : Bool} {ts : List Str} {s : List M68Slot} {v : List Int} {b : Bytes}
    (h : I86Enc c m late (.r8 n) ts s v b m') : ∃ t, I86Name i86Names8 n t ∧ ts = [t] := by
  cases h with
  | r8 hf => exact ⟨_, hf, rfl⟩
  | reg hn => simp at hn
  | regLate hn => simp at hn
  | rm hn => simp at hn
  | mem hn => simp at hn

/-- A line whose numbers are read so, and which is not odd, becomes the code of the instruction it writes. -/
theorem line_decodes {value : M68Use → Nat → Str → Int → Prop} {c : Ctx} {t : Str} {rest : List Str} {blob : Bytes} {rels stale own : List Reloc}
    {r : Nat × String × List I86Arg} {ts us : List Str} {s : List M68Slot} {v v' : List Int} {b b' : Bytes} (hV : I86Reading c value)
    (h : I86Row c t rest blob rels r ts us s v b stale own) (h' : I86Encs c (rowModrm r.1) false r.2.2 ts s v' b') (hv : I86Meets value s v')
    (ho : ¬ I86Odd value t rest) :
    ∃ used extra i, rest = used ++ extra ∧ (i.args = [] → extra = []) ∧ I86Written value t used i ∧
      disasm86 (BitVec.ofNat 8 (rowOp r.1) :: b') = some i := by
  obtain ⟨hob, hi0, hnil, hshift⟩ := table_names r h.row
  have hodd : r.1 ∉ oddRows := fun hm => ho (h.odd hm value)
  have hVal : I86Values c value r.2.2 rest := by
    refine ⟨hV.num, hV.three, ?_, ?_⟩
    · intro hm pre post w x hw hx
      have h0 : 0 ≤ x := by
        refine Int.not_lt.1 fun hneg => ho ?_
        have hal : ∃ a ∈ ts, I86Name i86Names8 0 a := by
          rcases ob_al r h.row hm with e | e
          · have h1 := h.encs
            rw [e] at h1
            cases h1 with
            | cons h1 h2 =>
              obtain ⟨a, ha, rfl⟩ := inv_r8 h1
              exact ⟨a, by simp, ha⟩
          · have h1 := h.encs
            rw [e] at h1
            cases h1 with
            | cons h1 h2 =>
              cases h2 with
              | cons h2 h3 =>
                obtain ⟨a, ha, rfl⟩ := inv_r8 h2
                exact ⟨a, by simp, ha⟩
        obtain ⟨a, ha, han⟩ := hal
        have hname := h.name
        rw [hob hm] at hname
        exact .negative (pre := pre) (post := post) (r := a) hname (by rw [hw]; simp) (by rw [h.text]; exact List.mem_append_left _ ha) han hx hneg
      exact ⟨hV.wide _ _ hx h0, h0, (hV.range _ _ hx).2⟩
    · intro pre post w hw hbp
      exact ho (.bp (pre := pre) (post := post) (by rw [hw]; simp) hbp)
  have hname := h.name
  have h1 : ¬ (r.2.2 = [] ∧ r.1 ∈ [0xD4, 0xD5]) := by
    rintro ⟨e, hm⟩
    have hn := hnil e hm
    exact ho (.adjust (hn.imp (fun e => by rwa [e] at hname) (fun e => by rwa [e] at hname)) (.inl (h.alone e)))
  have h2 : r.2.2 = [.i0] → b' ≠ [] := by
    intro e hb
    have hn := (hi0 (by rw [e]; simp)).1
    have hus := h.single (by rw [e]; simp)
    rw [e] at h'
    cases h' with
    | cons h3 h4 =>
      cases h4
      cases h3 with
      | @ten w hp =>
        obtain ⟨-, y, hy, heq⟩ := hV.num _ _ hp
        have := hV.range _ _ hy
        have : y = 10 := by omega
        subst this
        exact ho (.adjust (hn.imp (fun e => by rwa [e] at hname) (fun e => by rwa [e] at hname)) (.inr ⟨w, by rw [h.text, hus]; rfl, hy⟩))
      | i0 => cases hb
      | reg hn => simp at hn
      | regLate hn => simp at hn
      | rm hn => simp at hn
      | mem hn => simp at hn
  have h3 : isShift r.2.1 = true → ∃ w, us = [w] ∧ I86Free w ∧ value .data 8 w 1 := by
    intro hs
    obtain ⟨hn, ha, hbig⟩ := hshift hs
    refine Classical.byContradiction fun hno => ?_
    have htext : ∃ o, I86Text value o ts := by
      have h'' := h'
      obtain ⟨a, ha, e⟩ : ∃ a, a ∈ [I86Arg.eb, .ev, .m] ∧ r.2.2 = [a] := by
        rcases ha with e | e <;> exact ⟨_, by simp, e⟩
      rw [e] at h''
      unfold rowModrm at h''
      rw [if_pos hbig] at h''
      cases h'' with
      | cons h4 h5 =>
        cases h5
        obtain ⟨mod, rm, d, rfl, hE, hlate⟩ := enc_rm ha rfl h4
        simp only [I86LateBuild, reduceCtorEq, if_false] at hlate
        simp only [List.append_nil] at hv
        have hlt : r.1 % 256 < 8 := by
          rcases (table_args r h.row).2 with h5 | h5
          · exact h5
          · omega
        obtain ⟨rr, o, -, -, h8, -⟩ := rm_decode hE hlt hlate hv (not_bp hVal (pre := []) (post := us) (by rw [h.text]; simp) hE)
        exact ⟨o, by simpa using h8⟩
    obtain ⟨o, htext⟩ := htext
    exact ho (.shift (hn.imp (fun e => by rwa [e] at hname) (fun e => by rwa [e] at hname)) htext h.text hno)
  obtain ⟨used, extra, os, h4, h5, h6⟩ := row_decodes h.row h.text hVal hodd h1 h3 h' hv h2
  refine ⟨used, extra, ⟨r.2.1, os⟩, h4, ?_, ⟨hname, h5⟩, h6⟩
  intro e
  have e : os = [] := e
  subst e
  by_cases he : r.2.2 = []
  · rw [h.alone he] at h4
    exact (List.append_eq_nil_iff.1 h4.symm).2
  · obtain ⟨g, hg, h7⟩ := disasm_none h6
    have := table_some r h.row hodd he g hg
    rw [BitVec.toNat_ofNat] at h7
    rw [h7] at this
    cases this

/-! ## numbers in the line itself -/

theorem byteSlot_ok (t : Str) : SlotOk (byteSlot t) := ⟨by simp [byteSlot], by simp [byteSlot]⟩

theorem number_reading {c : Ctx} (hsy : c.sy = i8086.sy) : I86Reading c (m68Number c) := by
  refine ⟨?_, three_value hsy, ?_, ?_⟩
  · intro t x h
    have h1 : H.parseIntegerOrLabel (byteSlot t).2.1 (byteSlot t).2.2 c = (.ok x, []) := parseIntegerOrLabel_number h
    rcases slot_value (byteSlot_ok t) h1 with ⟨-, y, hy, e⟩ | ⟨e, -, -⟩
    · exact ⟨number_free hsy hy, y, hy, e⟩
    · cases e
  · rintro t y ⟨dec, -, hf⟩
    unfold M68Fits at hf
    split at hf
    · omega
    · simp at hf
      omega
  · rintro t y ⟨dec, hx, hf⟩ h0
    refine ⟨dec, hx, ?_⟩
    unfold M68Fits at hf ⊢
    split at hf
    · rw [if_pos (by assumption)]
      omega
    · rw [if_neg (by assumption)]
      simp at hf ⊢
      omega

/-- Every slot of an operand is one a number or a label can fill. -/
theorem enc_slots {c : Ctx} (hpc : 0 ≤ c.pc) {m m' : I86Modrm} {late : Bool} {a : I86Arg} {ts : List Str} {s : List M68Slot} {v : List Int} {b : Bytes}
    (h : I86Enc c m late a ts s v b m') : ∀ p ∈ s, SlotOk p := by
  have hd : ∀ d, SlotOk (dispSlot d) := fun d => ⟨by simp [dispSlot], by simp [dispSlot]⟩
  have hw : ∀ d, SlotOk (wordSlot d) := fun d => ⟨by simp [wordSlot], by simp [wordSlot]⟩
  have hs : ∀ d, SlotOk (segSlot d) := fun d => ⟨by simp [segSlot], by simp [segSlot]⟩
  have hn : ∀ d, SlotOk (nearSlot c.pc d) := fun d => ⟨by simp [nearSlot], by simp [nearSlot]; omega⟩
  have hf : ∀ d, SlotOk (farSlot c.pc d) := fun d => ⟨by simp [farSlot], by simp [farSlot]; omega⟩
  have hb : ∀ {m s v b}, I86Build m s v b → ∀ p ∈ s, SlotOk p := by
    intro m s v b h
    cases h with
    | plain => simp
    | disp => simpa using hd _
  have hl : ∀ {m s v b}, I86LateBuild m s v b → ∀ p ∈ s, SlotOk p := by
    intro m s v b h
    unfold I86LateBuild at h
    split at h
    · rw [h.1]; simp
    · exact hb h
  cases h with
  | regLate _ _ _ h => exact hb h
  | rm _ _ h => exact hl h
  | mem _ _ _ h => exact hl h
  | ib => simpa using byteSlot_ok _
  | ob => simpa using byteSlot_ok _
  | iv => simpa using hw _
  | ov => simpa using hw _
  | jb => simpa using hn _
  | jv => simpa using hf _
  | mp _ h =>
    intro p hp
    rcases List.mem_append.1 hp with hp | hp
    · exact hb h p hp
    · rw [List.mem_singleton.1 hp]
      exact hw _
  | ap =>
    intro p hp
    simp only [List.mem_cons, List.not_mem_nil, or_false] at hp
    rcases hp with rfl | rfl
    · exact hw _
    · exact hs _
  | _ => simp

theorem encs_slots {c : Ctx} (hpc : 0 ≤ c.pc) : ∀ {m : I86Modrm} {late : Bool} {as : List I86Arg} {ts : List Str} {s : List M68Slot} {v : List Int} {b : Bytes},
    I86Encs c m late as ts s v b → ∀ p ∈ s, SlotOk p
  | _, _, _, _, _, _, _, .nil => by simp
  | _, _, _, _, _, _, _, .cons h h' => by
    intro p hp
    rcases List.mem_append.1 hp with hp | hp
    · exact enc_slots hpc h p hp
    · exact encs_slots hpc h' p hp

theorem reads_meets {c : Ctx} : ∀ {s : List M68Slot} {v : List Int} {rels : List Reloc}, (∀ p ∈ s, SlotOk p) → I86Reads c s v rels → rels = [] → I86Meets (m68Number c) s v
  | _, _, _, _, .nil, _ => .nil
  | _, _, _, hs, .cons h h', e => by
    obtain ⟨rfl, rfl⟩ := List.append_eq_nil_iff.1 e
    rcases slot_value (hs _ (List.mem_cons_self ..)) h with ⟨-, x, hx, e⟩ | ⟨e, -, -⟩
    · exact .cons hx e (reads_meets (fun p hp => hs p (List.mem_cons_of_mem _ hp)) h' rfl)
    · cases e

end Necro
