import Verif.Lemmas.PpcLine
/-!
# What the PowerPC assembler accepts
-/

namespace Necro
open Spec

/-! ## The text determines the instruction -/

theorem tokenValue_unique {sy : NumSyntax} {ls : Labels} {tok : Str} {x y : Int} {d e : Bool} (h : TokenValue sy ls tok x d) (h' : TokenValue sy ls tok y e) : x = y := by
  obtain ⟨l, h1, h2⟩ := h
  obtain ⟨l', h3, h4⟩ := h'
  rw [h1] at h3
  cases h3
  rw [h2] at h4
  cases h4
  rfl

theorem ppcNumber_unique {c : Ctx} {o : PpcOperand} {w : Nat} {tok : Str} {n m : Nat} (h : ppcNumber c o w tok n) (h' : ppcNumber c o w tok m) : n = m := by
  obtain ⟨x, ⟨d, h1, -⟩, h2⟩ := h
  obtain ⟨y, ⟨e, h3, -⟩, h4⟩ := h'
  have := tokenValue_unique h1 h3
  subst this
  rw [← h4] at h2
  exact_mod_cast h2

theorem ppc_name_eq {t : Str} {n m : Nat} (hn : n < 32) (hm : m < 32) (h : eqNoCase t (ppcName 'r' n)) (h' : eqNoCase t (ppcName 'r' m)) : n = m :=
  name_unique n hn m hm (show upper (ppcName 'r' n) = upper (ppcName 'r' m) from (show upper t = upper (ppcName 'r' n) from h).symm.trans h')

theorem fname_eq {t : Str} {n m : Nat} (hn : n < 32) (hm : m < 32) (h : eqNoCase t (ppcName 'f' n)) (h' : eqNoCase t (ppcName 'f' m)) : n = m :=
  fname_unique n hn m hm (show upper (ppcName 'f' n) = upper (ppcName 'f' m) from (show upper t = upper (ppcName 'f' n) from h).symm.trans h')

theorem text_unique {c : Ctx} {o : PpcOperand} {w : Nat} {tok : Str} {n m : Nat} (h : PpcText (ppcNumber c) o w tok n) (h' : PpcText (ppcNumber c) o w tok m) : n = m := by
  cases h with
  | gpr hn he => cases h' with
    | gpr hm he' => exact ppc_name_eq hn hm he he'
    | value hmem => exact absurd hmem (by decide)
  | base hn he => cases h' with
    | base hm he' => exact ppc_name_eq hn hm he he'
    | zero => exact absurd he (not_zero_name n hn)
    | value hmem => exact absurd hmem (by decide)
  | zero => cases h' with
    | base hm he' => exact absurd he' (not_zero_name m hm)
    | zero => rfl
    | value hmem => exact absurd hmem (by decide)
  | fpr hn he => cases h' with
    | fpr hm he' => exact fname_eq hn hm he he'
    | value hmem => exact absurd hmem (by decide)
  | value hmem _ hv => cases h' with
    | gpr => exact absurd hmem (by decide)
    | base => exact absurd hmem (by decide)
    | zero => exact absurd hmem (by decide)
    | fpr => exact absurd hmem (by decide)
    | value _ _ hv' => exact ppcNumber_unique hv hv'

theorem ppc_fill_unique {c : Ctx} {rest : List Str} : ∀ {fields : List PpcField} {args : List PpcArg} {vs ws : List Nat}, PpcFill (ppcNumber c) rest fields args vs →
    PpcFill (ppcNumber c) rest fields args ws → vs = ws := by
  intro fields args vs ws h
  induction h generalizing ws with
  | nil => intro h'; cases h'; rfl
  | num _ ih => intro h'; cases h' with | num h' => rw [ih h']
  | op h1 h2 _ ih =>
    intro h'
    cases h' with
    | op h3 h4 h5 =>
      rw [h1] at h3
      cases h3
      rw [ih h5, text_unique h2 h4]

theorem writes_unique {c : Ctx} {f : PpcForm} {t : Str} {rest : List Str} {i j : String × List Nat} (h : PpcWrites (ppcNumber c) f t rest i)
    (h' : PpcWrites (ppcNumber c) f t rest j) : i = j := by
  cases h with
  | mk h1 h2 _ _ h3 =>
    cases h' with
    | mk h4 h5 _ _ h6 =>
      cases ppc_op_unique h1 h4 (h2.trans h5.symm)
      rw [ppc_fill_unique h3 h6]

/-! ## Running the row of a form -/

theorem splits_pre {name : String} {base : Nat} {r : String × Nat × List (List PpcItem) × List PpcItem} : ∀ {rows : List PpcRow} {pre : List (List PpcItem)},
    r ∈ ppcSplits name base pre rows → r.1 = name ∧ r.2.1 = base ∧ ∀ x ∈ pre, x ∈ r.2.2.1 := by
  intro rows
  induction rows with
  | nil => intro pre h; cases h
  | cons row rows ih =>
    intro pre h
    rcases List.mem_cons.1 h with rfl | h
    · exact ⟨rfl, rfl, fun x hx => hx⟩
    · obtain ⟨h1, h2, h3⟩ := ih h
      exact ⟨h1, h2, fun x hx => h3 x (by simp [hx])⟩

theorem ppcCall_of {c : Ctx} {t : Str} {rest : List Str} {blob : Bytes} {rels : List Reloc} {name : String} {base : Nat} {r : String × Nat × List (List PpcItem) × List PpcItem}
    {vals : List Int} (hrun : PpcRun c rest blob rels r vals) : ∀ {rows : List PpcRow} {pre : List (List PpcItem)}, r ∈ ppcSplits name base pre rows →
    ppcCall base (t :: rest) (rows.map Prod.snd) c = (.ok (some blob), rels) := by
  intro rows
  induction rows with
  | nil => intro pre h; cases h
  | cons row rows ih =>
    intro pre h
    obtain ⟨b0, cond⟩ := row
    rcases List.mem_cons.1 h with rfl | h
    · obtain ⟨v, hv, hb⟩ := hrun.word
      cases cond with
      | none =>
        have hreads := hrun.reads
        simp only [Option.getD_none] at hreads
        cases hreads
        cases hv
        simp only [List.map_cons, ppcCall]
        rw [if_pos (by rfl), hb]
        have := H.bind_run (m := H.lift (packBe32u [some (base : Int)])) (f := fun b => (pure (some b) : H (Option Bytes))) (c := c) (a := wordBytes true 4 base)
          (by rw [H.lift_apply, pack32_any])
        rw [this]
        rfl
      | some items =>
        simp only [List.map_cons, ppcCall]
        rw [if_pos (by rw [instrMatch_cons]; exact hrun.pats)]
        have h1 := reads_fields (tokens := t :: rest) hrun.reads (index := 0) rfl
        refine lift_bind h1 ?_
        refine (H.bind_run (a := v) (by rw [H.lift_apply]; exact congrArg (·, []) hv)).trans ?_
        refine (H.bind_run (a := blob) (by rw [H.lift_apply, pack32_any, hb])).trans ?_
        rfl
    · have hno : matchAll rest (ppcPats (cond.getD [])) = false := hrun.first _ ((splits_pre h).2.2 _ (by simp))
      have := ih h
      cases cond with
      | none =>
        simp only [List.map_cons, ppcCall]
        rw [if_neg ?_]
        · exact this
        · intro hl
          have hrest : rest = [] := by simpa using hl
          subst hrest
          cases hno
      | some items =>
        simp only [List.map_cons, ppcCall]
        rw [if_neg ?_]
        · exact this
        · rw [instrMatch_cons]
          intro hm
          have : matchAll rest (ppcPats items) = true := hm
          simp only [Option.getD_some] at hno
          rw [hno] at this
          cases this

theorem ppc_instr {g : String × List PpcRow} (hg : g ∈ ppcTable) (hne : g.2 ≠ []) {t : Str} (ht : eqNoCase t g.1.toList) :
    ppc.instrs (ppc.key t) = some (.handler fun tokens => ppcCall (g.2.headD (0, none)).1 tokens (g.2.map Prod.snd)) := by
  rw [ppc_key]
  simp only [ppc]
  have hf : ppcTable.find? (fun x => upper x.1.toList == upper t) = some g := by
    cases hf : ppcTable.find? (fun x => upper x.1.toList == upper t) with
    | none =>
      have := List.find?_eq_none.1 hf g hg
      simp only [beq_iff_eq] at this
      exact absurd (show upper t = upper g.1.toList from ht).symm this
    | some g' =>
      have h1 := List.find?_some hf
      rw [beq_iff_eq] at h1
      rw [ppc_group_unique (List.mem_of_find?_eq_some hf) hg (h1.trans ht)]
  rw [hf]
  obtain ⟨n, rows⟩ := g
  cases rows with
  | nil => exact absurd rfl hne
  | cons row rows => rfl

/-! ## Every form has its row -/

theorem marks_mem : ∀ {l : List Nat} {i : Nat}, (ppcMarks l).testBit i = true → i ∈ l := by
  intro l
  induction l with
  | nil => intro i h; simp [ppcMarks] at h
  | cons k l ih =>
    intro i h
    simp only [ppcMarks, Nat.testBit_or, Bool.or_eq_true] at h
    rcases h with h | h
    · rw [Nat.testBit_shiftLeft] at h
      simp only [Bool.and_eq_true, decide_eq_true_eq] at h
      have : i - k = 0 := by
        apply Nat.eq_zero_of_not_pos
        intro hp
        have := Nat.testBit_lt_two_pow (x := 1) (i := i - k) (Nat.one_lt_two_pow (by omega))
        rw [this] at h
        cases h.2
      have : i = k := by omega
      simp [this]
    · simp [ih h]

theorem form_row {f : PpcForm} (hf : f ∈ ppcForms) (ho : (f.name, f.arity) ∉ ppcOddLines) (hn : (f.name, f.arity) ∉ ppcNever) {t : Str} (ht : eqNoCase t f.name.toList) :
    ∃ g ∈ ppcTable, eqNoCase t g.1.toList ∧ ∃ r ∈ ppcSplits g.1 (g.2.headD (0, none)).1 [] g.2, ∃ op, PpcMatch t r f op ∧ ∀ x ∈ r.2.2.1, x.length ≠ r.2.2.2.length := by
  obtain ⟨i, hi⟩ := List.getElem?_of_mem hf
  have hlt : i < ppcForms.length := (List.getElem?_eq_some_iff.1 hi).1
  have hbit : (ppcMarks (ppcPlan.map Prod.fst) ||| ppcMarks ppcLeft).testBit i = true := by
    have h := congrArg (fun n => n.testBit i) ppc_all_planned
    simp only [Nat.testBit_mod_two_pow, Nat.testBit_two_pow_sub_one, hlt, decide_true, Bool.true_and] at h
    exact h
  rw [Nat.testBit_or, Bool.or_eq_true] at hbit
  rcases hbit with hbit | hbit
  · obtain ⟨p, hp, rfl⟩ := List.mem_map.1 (marks_mem hbit)
    obtain ⟨r, hr, hok⟩ := plan_rows ppc_rows_ok p hp
    obtain ⟨g, hg, hr⟩ := List.mem_flatMap.1 hr
    have hname := (splits_pre hr).1
    unfold ppcRowOk at hok
    have hlen : ppcForms.length = 543 := by decide +kernel
    rw [if_neg (by rw [Nat.beq_eq]; omega)] at hok
    have hfn : f.name = r.1 := by
      have h := hok
      simp only [ppcRowPlanned, Bool.and_eq_true] at h
      have h := h.2
      split at h
      · rename_i f' op hf' _
        rw [hi] at hf'
        cases hf'
        simp only [Bool.and_eq_true, beq_iff_eq] at h
        exact h.1.1.1
      · cases h
    have htr : eqNoCase t r.1.toList := by rw [← hfn]; exact ht
    obtain ⟨f', op, hf', hm⟩ := planned_match hok htr
    rw [hi] at hf'
    cases hf'
    refine ⟨g, hg, by rw [← hname]; exact htr, r, hr, op, hm, ?_⟩
    simp only [ppcRowPlanned, Bool.and_eq_true, List.all_eq_true, Bool.not_eq_true'] at hok
    exact fun x hx => Nat.ne_of_beq_eq_false (hok.1.2 x hx)
  · have := ppc_left
    rw [List.all_eq_true] at this
    have := this i (marks_mem hbit)
    rw [hi] at this
    simp only [Bool.or_eq_true, List.contains_eq_mem, decide_eq_true_eq] at this
    rcases this with h | h
    · exact absurd h ho
    · exact absurd h hn

/-! ## Filling the row -/

theorem fill_get {value : PpcOperand → Nat → Str → Nat → Prop} {rest : List Str} : ∀ {fields : List PpcField} {args : List PpcArg} {vs : List Nat}, PpcFill value rest fields args vs →
    ∀ {i : Nat}, PpcArg.op i ∈ args → ∃ (k : Nat) (fl : PpcField) (tok : Str) (n : Nat), fields[k]? = some fl ∧ args[k]? = some (.op i) ∧ rest[i]? = some tok ∧ PpcText value fl.kind (fl.hi - fl.lo + 1) tok n := by
  intro fields args vs h
  induction h with
  | nil => intro i hi; cases hi
  | num _ ih =>
    intro i hi
    rcases List.mem_cons.1 hi with hi | hi
    · cases hi
    · obtain ⟨k, fl, tok, n, h1, h2, h3⟩ := ih hi
      exact ⟨k + 1, fl, tok, n, by simpa using h1, by simpa using h2, h3⟩
  | @op f fs as j tok n vs h1 h2 _ ih =>
    intro i hi
    rcases List.mem_cons.1 hi with hi | hi
    · cases hi
      exact ⟨0, f, tok, n, rfl, rfl, h1, h2⟩
    · obtain ⟨k, fl, tok, n, h1, h2, h3⟩ := ih hi
      exact ⟨k + 1, fl, tok, n, by simpa using h1, by simpa using h2, h3⟩

theorem argsOk_get {base : Nat} {items : List PpcItem} : ∀ {fields : List PpcField} {args : List PpcArg}, ppcArgsOk base items fields args = true →
    ∀ {k i : Nat} {fl : PpcField}, fields[k]? = some fl → args[k]? = some (.op i) → ∃ x, items[i]? = some x ∧ ppcKindOk fl.kind x.2.2 = true ∧ fl.lo = x.1 ∧ fl.hi + 1 = x.1 + x.2.1 := by
  intro fields
  induction fields with
  | nil => intro args _ k i fl h; simp at h
  | cons f fields ih =>
    intro args h k i fl hf ha
    cases args with
    | nil => simp at ha
    | cons a as =>
      cases k with
      | zero =>
        simp at hf ha
        subst hf; subst ha
        simp only [ppcArgsOk, Bool.and_eq_true] at h
        have h := h.1
        split at h
        · rename_i lo w k hx
          simp only [Bool.and_eq_true, Nat.beq_eq] at h
          exact ⟨_, hx, h.1.1, h.1.2, h.2⟩
        · cases h
      | succ k =>
        have hrest : ppcArgsOk base items fields as = true := by
          cases a <;> simp only [ppcArgsOk, Bool.and_eq_true] at h <;> exact h.2
        exact ih hrest (by simpa using hf) (by simpa using ha)

theorem reads_build {c : Ctx} : ∀ {items : List PpcItem} {toks : List Str}, toks.length = items.length →
    (∀ (i : Nat) (x : PpcItem), items[i]? = some x → ∃ tok, toks[i]? = some tok ∧ x.2.2.pat.matches tok = true ∧ ∃ v, x.2.2.value (x.1 + x.2.1 - 1) x.1 tok c = (.ok v, []) ∧ FieldOk ⟨x.1 + x.2.1 - 1, x.1, v⟩) →
    matchAll toks (ppcPats items) = true ∧ ∃ vals, PpcReads c items toks vals [] ∧ ∀ f ∈ ppcBitFields items vals, FieldOk f := by
  intro items
  induction items with
  | nil =>
    intro toks hl _
    cases List.length_eq_zero_iff.1 hl
    exact ⟨rfl, [], .nil, by simp [ppcBitFields]⟩
  | cons x items ih =>
    intro toks hl h
    cases toks with
    | nil => cases hl
    | cons tok toks =>
      obtain ⟨tok', h1, h2, v, h3, h4⟩ := h 0 x rfl
      simp at h1
      subst h1
      obtain ⟨g1, vals, g2, g3⟩ := ih (toks := toks) (Nat.succ.inj hl) (fun i y hy => by
        obtain ⟨tok', e1, e2⟩ := h (i + 1) y (by simpa using hy)
        exact ⟨tok', by simpa using e1, e2⟩)
      refine ⟨by simp only [ppcPats, List.map_cons, matchAll, Bool.and_eq_true]; exact ⟨h2, g1⟩, v :: vals, .cons h3 g2, ?_⟩
      intro f hf
      simp only [ppcBitFields, List.zipWith_cons_cons, List.mem_cons] at hf
      rcases hf with rfl | hf
      · exact h4
      · exact g3 f hf

end Necro
