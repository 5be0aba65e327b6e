import Verif.Spec.Operands
import Verif.Lemmas.Visits
import Verif.Props.Tokenizer
/-!
# The tokens of a program

`GoodSt P`: the values of defined names and the tokens in the bodies of macros satisfy `P`.
-/

namespace Necro
open Spec
open M (throw get modify lift forEach times)

/-! ## substitution -/

theorem quotes_append (a b : Str) : quotes (a ++ b) = quotes a + quotes b := List.countP_append ..

theorem unbroken_append {a b : Str} (ha : Unbroken a) (hb : Unbroken b) : Unbroken (a ++ b) := by
  rintro ⟨c, hc, hs⟩
  rw [quotes_append]
  rcases List.mem_append.1 hc with h | h
  · have := ha ⟨c, h, hs⟩; omega
  · have := hb ⟨c, h, hs⟩; omega

theorem unbroken_of_none {a : Str} (h : ∀ c ∈ a, separates c = false) : Unbroken a := by
  rintro ⟨c, hc, hs⟩
  rw [h c hc] at hs
  cases hs

theorem separates_iff (c : Char) : separates c = true ↔ c ∈ " \n\r\t,;:\"'".toList := by
  unfold separates
  exact List.contains_iff_mem

theorem name_not_separates {c : Char} (h : isNameChar c = true) : separates c = false := by
  cases hs : separates c with
  | false => rfl
  | true =>
    rw [separates_iff] at hs
    have : ∀ c ∈ " \n\r\t,;:\"'".toList, isNameChar c = false := by decide
    rw [this c hs] at h
    cases h

theorem not_quote_of_not_separates {c : Char} (h : separates c = false) : isQuoteChar c = false := by
  cases hq : isQuoteChar c with
  | false => rfl
  | true =>
    simp only [isQuoteChar, Bool.or_eq_true, decide_eq_true_eq] at hq
    rcases hq with rfl | rfl <;> revert h <;> decide

theorem quotes_zero {a : Str} (h : ∀ c ∈ a, separates c = false) : quotes a = 0 :=
  List.countP_eq_zero.2 fun c hc => by simp [not_quote_of_not_separates (h c hc)]

theorem subScan_quotes (d : List (Str × Str)) : ∀ (cs acc out : Str), (∀ c ∈ acc, separates c = false) →
    quotes out + quotes cs ≤ quotes (subScan d acc out cs)
  | [], acc, out, _ => by
    unfold subScan
    split
    · rw [quotes_append]; simp [quotes]
    · simp [quotes]
  | c :: cs, acc, out, ha => by
    unfold subScan
    have e : quotes (c :: cs) = quotes [c] + quotes cs := by rw [← quotes_append]; rfl
    split
    · rename_i hn
      have h := subScan_quotes d cs (acc ++ [c]) out (by
        intro x hx
        rcases List.mem_append.1 hx with h | h
        · exact ha x h
        · cases List.mem_singleton.1 h; exact name_not_separates hn)
      have h0 : quotes [c] = 0 := quotes_zero (by intro x hx; cases List.mem_singleton.1 hx; exact name_not_separates hn)
      omega
    · split
      · have h := subScan_quotes d cs [] ((out ++ subRun d acc) ++ [c]) (by intro x hx; cases hx)
        simp only [quotes_append] at h
        omega
      · have h := subScan_quotes d cs [] (out ++ [c]) (by intro x hx; cases hx)
        simp only [quotes_append] at h
        omega

variable {d : List (Str × Str)}

theorem subRun_unbroken (hd : ∀ e ∈ d, Unbroken e.2) {run : Str} (h : ∀ c ∈ run, separates c = false) : Unbroken (subRun d run) := by
  unfold subRun
  split
  · exact hd _ (mem_of_dget (by assumption))
  · exact unbroken_of_none h

theorem subScan_unbroken (hd : ∀ e ∈ d, Unbroken e.2) : ∀ (cs acc out : Str), (∀ c ∈ acc, separates c = false) → (∀ c ∈ cs, separates c = false) →
    Unbroken out → Unbroken (subScan d acc out cs)
  | [], acc, out, ha, _, ho => by
    unfold subScan
    split
    · exact unbroken_append ho (subRun_unbroken hd ha)
    · exact ho
  | c :: cs, acc, out, ha, hc, ho => by
    unfold subScan
    have hcs : ∀ x ∈ cs, separates x = false := fun x hx => hc x (List.mem_cons_of_mem _ hx)
    have h1 : ∀ x ∈ [c], separates x = false := fun x hx => by cases List.mem_singleton.1 hx; exact hc c (List.mem_cons_self ..)
    split
    · exact subScan_unbroken hd cs _ _ (fun x hx => (List.mem_append.1 hx).elim (ha x) (h1 x)) hcs ho
    · split
      · exact subScan_unbroken hd cs _ _ (fun x hx => by cases hx) hcs (unbroken_append (unbroken_append ho (subRun_unbroken hd ha)) (unbroken_of_none h1))
      · exact subScan_unbroken hd cs _ _ (fun x hx => by cases hx) hcs (unbroken_append ho (unbroken_of_none h1))

/-- What substitution has to respect. -/
def Substitutes (P : Str → Prop) : Prop := ∀ (d : List (Str × Str)) (tok : Str), (∀ e ∈ d, P e.2) → P tok → P (subToken d tok)

theorem substitutes_unbroken : Substitutes Unbroken := by
  intro d tok hd ht
  unfold subToken
  split
  · exact hd _ (mem_of_dget (by assumption))
  · by_cases h : ∃ c ∈ tok, separates c = true
    · have h1 := ht h
      have h2 := subScan_quotes d tok [] [] (by intro c hc; cases hc)
      intro _
      omega
    · refine subScan_unbroken hd tok [] [] (fun c hc => by cases hc) (fun c hc => ?_) (unbroken_of_none fun c hc => by cases hc)
      cases hs : separates c with
      | false => rfl
      | true => exact absurd ⟨c, hc, hs⟩ h

/-! ## the tokens of a text -/

theorem shape_unbroken {tok : Str} (h : TokenShape tok) : Unbroken tok := by
  have two : ∀ (q : Char) (body : Str), isQuoteChar q = true → Unbroken (q :: body ++ [q]) := by
    intro q body hq _
    have e : quotes (q :: body ++ [q]) = quotes [q] + quotes body + quotes [q] := by
      rw [← quotes_append, ← quotes_append]; rfl
    have h1 : quotes [q] = 1 := by simp [quotes, hq]
    omega
  cases h with
  | plain _ _ hp =>
    refine unbroken_of_none fun c hc => ?_
    cases hs : separates c with
    | false => rfl
    | true =>
      rw [separates_iff] at hs
      have : ∀ c ∈ " \n\r\t,;:\"'".toList, plainChar c = false := by decide
      have h1 := hp c hc
      rw [this c hs] at h1
      cases h1
  | bracket c hc =>
    refine unbroken_of_none fun x hx => ?_
    cases List.mem_singleton.1 hx
    have : ∀ c ∈ "()[]{}".toList, separates c = false := by decide
    exact this c hc
  | str body _ => exact two '"' body rfl
  | chr body _ => exact two '\'' body rfl

/-! ## the state -/

section
variable (P : Str → Prop)

structure GoodSt (s : St) : Prop where
  defines : ∀ e ∈ s.defines, P e.2
  macros : ∀ e ∈ s.macros, ∀ st ∈ e.2.body, ∀ tok ∈ st.tokens, P tok

def TokRel (s s' : St) : Prop := GoodSt P s → GoodSt P s'

theorem tokData : DataRel (TokRel P) where
  refl := fun _ h => h
  trans := fun h1 h2 h => h2 (h1 h)
  append := fun _ _ h => ⟨h.1, h.2⟩
  reloc := fun _ _ h => ⟨h.1, h.2⟩

variable {P}

theorem tok_same {s s' : St} (h1 : s'.defines = s.defines) (h2 : s'.macros = s.macros) : TokRel P s s' := fun h => ⟨by rw [h1]; exact h.1, by rw [h2]; exact h.2⟩

theorem tok_setBody {ts : List Str} (ht : ∀ tok ∈ ts, P tok) (key : Str) (i : Nat) : Keeps (TokRel P) (setBodyTokens key i ts) := by
  intro s h
  unfold setBodyTokens
  simp only [modify_eq]
  split
  · rename_i m hm
    refine ⟨h.1, fun e he st hst => ?_⟩
    rcases mem_dset he with he | rfl
    · exact h.2 e he st hst
    · have h0 := h.2 _ (mem_of_dget hm)
      simp only at hst
      rw [List.mem_iff_getElem?] at hst
      obtain ⟨j, hj⟩ := hst
      rw [List.getElem?_modify] at hj
      cases hb : m.body[j]? with
      | none => rw [hb] at hj; simp at hj
      | some st0 =>
        rw [hb] at hj
        have hm0 := h0 st0 (List.mem_of_getElem? hb)
        simp only [Option.map_eq_map, Option.map_some, Option.some.injEq] at hj
        split at hj
        · subst hj; exact ht
        · subst hj; exact hm0
  · exact h

theorem tok_writeBack {ts : List Str} (ht : ∀ tok ∈ ts, P tok) (ref : StmtRef) : Keeps (TokRel P) (writeBack ref ts) := by
  cases ref with
  | none => exact fun s h => h
  | some p => exact tok_setBody ht _ _

theorem sub_good (hs : Substitutes P) {ts : List Str} {d : List (Str × Str)} (hd : ∀ e ∈ d, P e.2) (ht : ∀ tok ∈ ts, P tok) (n : Nat) :
    ∀ tok ∈ substituteWithDict ts d n, P tok := by
  intro tok h
  unfold substituteWithDict at h
  rcases List.mem_append.1 h with h | h
  · exact ht tok (List.mem_of_mem_take h)
  · obtain ⟨x, hx, rfl⟩ := List.mem_map.1 h
    exact hs d x hd (ht x (List.mem_of_mem_drop hx))

theorem macroDict_good : ∀ {ps as : List Str} {acc md : List (Str × Str)}, (∀ a ∈ as, P a) → (∀ e ∈ acc, P e.2) → macroDict ps as acc = .ok md → ∀ e ∈ md, P e.2
  | [], _, acc, md, _, hacc, h => by
    unfold macroDict at h
    cases h; exact hacc
  | _ :: _, [], _, _, _, _, h => by
    unfold macroDict at h
    cases h
  | p :: ps, a :: as, acc, md, ha, hacc, h => by
    unfold macroDict at h
    refine macroDict_good (fun x hx => ha x (List.mem_cons_of_mem _ hx)) (fun e he => ?_) h
    rcases mem_dset he with he | rfl
    · exact hacc e he
    · exact ha a (List.mem_cons_self ..)

theorem tok_macroStep (hs : Substitutes P) {exec : StmtRef → Stmt → M Unit} (he : ∀ r st, (∀ tok ∈ st.tokens, P tok) → Keeps (TokRel P) (exec r st)) (key : Str)
    (ps : List Str) {as : List Str} (ha : ∀ a ∈ as, P a) (i : Nat) : Keeps (TokRel P) (macroStep exec key ps as i) := by
  refine .bind' (tokData P) (.get (tokData P)) fun s0 s s1 hs1 => ?_
  injection hs1 with h1 h2; injection h1 with h1; subst h1; subst h2
  cases hm : dget s0.macros key with
  | none => exact fun h => h
  | some m =>
    dsimp only
    cases hst : m.body[i]? with
    | none => exact fun h => h
    | some st =>
      intro h
      have hst' := h.2 _ (mem_of_dget hm) st (List.mem_of_getElem? hst)
      refine Keeps.bind' (tokData P) (.lift (tokData P) _) (fun s1 md s2 hmd => ?_) s0 h
      · have hmd' : macroDict ps as [] = .ok md := by injection hmd
        have hg := sub_good hs (macroDict_good ha (by intro e he; cases he) hmd') hst' 0
        exact Keeps.bind (tokData P) (tok_setBody hg _ _) (fun _ => Keeps.bind (tokData P) (he _ _ hg) fun _ => tok_setBody hst' _ _) s2

theorem tok_addRelocs : ∀ (l : List Reloc) (s : St), TokRel P s (l.foldl addReloc s)
  | [], _ => fun h => h
  | r :: l, s => fun h => tok_addRelocs l (addReloc s r) ⟨h.1, h.2⟩

theorem tok_execInstr (hs : Substitutes P) (d : Dialect) : ∀ depth ref st, (∀ tok ∈ st.tokens, P tok) → Keeps (TokRel P) (execInstr d depth ref st) := by
  intro depth
  have hd := tokData P
  induction depth with
  | zero => intro ref st _; exact .throw hd _
  | succ n ih =>
    intro ref st ht
    refine .bind' hd (.get hd) fun s s0 s1 hs1 => ?_
    injection hs1 with h1 h2; injection h1 with h1; subst h1; subst h2
    cases hrec : s.recording with
    | some key =>
      intro h
      show GoodSt P (recordStmt key st s).2
      unfold recordStmt
      split
      · rename_i m hm
        refine ⟨h.1, fun e he st' hst' => ?_⟩
        rcases mem_dset he with he | rfl
        · exact h.2 e he st' hst'
        · rcases List.mem_append.1 hst' with h' | h'
          · exact h.2 _ (mem_of_dget hm) st' h'
          · cases List.mem_singleton.1 h'; exact ht
      · exact h
    | none =>
      intro h
      have hg := sub_good hs h.1 ht 0
      refine Keeps.bind hd (tok_writeBack hg _) (fun _ => ?_) s h
      generalize substituteWithDict st.tokens s.defines 0 = tokens at hg
      split
      · exact .throw hd _
      · simp only
        split
        · exact .forEach hd fun i _ => tok_macroStep hs ih _ _ (fun a ha => hg a (List.mem_of_mem_drop ha)) _
        · split
          · exact .throw hd _
          · split
            · exact .throw hd _
            · exact .appendBytes hd _
          · refine .bind hd (fun s => ?_) fun _ => .appendBytes hd _
            rw [runHandler_state]
            exact tok_addRelocs _ s

theorem tok_closeSection : Keeps (TokRel P) closeSection := by
  intro s
  unfold closeSection
  repeat' split
  all_goals exact tok_same rfl rfl

theorem tok_changeOrg (d : Dialect) (a b : Int) : Keeps (TokRel P) (changeOrg d a b) := by
  intro s
  unfold changeOrg
  simp only
  repeat' split
  all_goals exact tok_same rfl rfl

theorem tok_section (d : Dialect) (l : List Str) : Keeps (TokRel P) (directiveSection d l) := by
  have hd := tokData P
  have tail : ∀ name p : Str, Keeps (TokRel P) (closeSection >>= fun _ => modify fun s =>
      let sec : Section := { start := s.pc, offset := s.bytes.length, permissions := p }
      { s with curSection := some name, sections := dset s.sections name sec } : M Unit) := fun name p =>
    .bind hd tok_closeSection fun _ s => tok_same rfl rfl
  have body : ∀ n p o, Keeps (TokRel P) (sectionBody d n p o) := by
    intro n p o
    unfold sectionBody
    refine .bind hd (.readOnly hd (stringify_state n)) fun name => .bind hd (.get hd) fun s => ?_
    split
    · exact .throw hd _
    · split
      · exact .throw hd _
      · cases o with
        | none => exact tail name p
        | some t => exact .bind hd (.readOnly hd (fun _ => parseArg_state ..)) fun v => .bind hd (tok_changeOrg d _ _) fun _ => tail name p
  unfold directiveSection
  split
  · exact body _ _ _
  · exact body _ _ _
  · exact .throw hd _

theorem tok_builtin {d : Dialect} (env : Env) (rec : Str → M Unit) (hr : ∀ c, Keeps (TokRel P) (rec c)) :
    ∀ p ∈ builtinDirective d env rec, ∀ l : List Str, (∀ tok ∈ l, P tok) → Keeps (TokRel P) (p.2 l) := by
  intro p hp l hl
  have hd := tokData P
  have hin : p ∈ dataDirectives d env ∨ p ∈ ([
    ("macro", directiveMacro d),
    ("endmacro", fun _ => directiveEndMacro),
    ("define", directiveDefine),
    ("log", directiveLog),
    ("repeat", directiveRepeat d),
    ("endrepeat", fun _ => directiveEndRepeat),
    ("export", directiveExport),
    ("org", directiveOrg d),
    ("include", directiveInclude env rec),
    ("ram", directiveRam d),
    ("section", directiveSection d)] : List (String × (List Str → M Unit))) := by
    simp only [builtinDirective, dataDirectives, List.mem_cons, List.not_mem_nil, or_false] at hp ⊢
    rcases hp with hp | hp | hp | hp | hp | hp | hp | hp | hp | hp | hp | hp | hp | hp | hp | hp | hp |
      hp | hp | hp | hp | hp | hp | hp | hp | hp | hp | hp | hp | hp <;> simp [hp]
  rcases hin with hin | hin
  · exact keeps_dataDirectives hd d env p hin l
  · simp only [List.mem_cons, List.not_mem_nil, or_false] at hin
    rcases hin with rfl | rfl | rfl | rfl | rfl | rfl | rfl | rfl | rfl | rfl | rfl
    · refine .bind hd (.get hd) fun s => ?_
      split
      · exact .throw hd _
      · split
        · exact .throw hd _
        · intro s h
          refine ⟨h.1, fun e he st hst => ?_⟩
          rcases mem_dset he with he | rfl
          · exact h.2 e he st hst
          · cases hst
    · exact keeps_directiveEndMacro hd fun s r => tok_same rfl rfl
    · show Keeps (TokRel P) (directiveDefine l)
      unfold directiveDefine
      split
      · intro s h
        refine ⟨fun e he => ?_, h.2⟩
        rcases mem_dset he with he | rfl
        · exact h.1 e he
        · exact hl _ (by simp)
      · exact .throw hd _
    · exact keeps_directiveLog hd (fun s r => tok_same rfl rfl) l
    · exact keeps_directiveRepeat hd (fun s r => tok_same rfl rfl) d l
    · exact keeps_directiveEndRepeat hd fun s r => tok_same rfl rfl
    · exact keeps_directiveExport hd (fun s n _ => tok_same rfl rfl) l
    · exact keeps_directiveOrg { toDataRel := hd, pad := fun s b => tok_same rfl rfl, org := fun s a b _ _ _ => tok_same rfl rfl } l
    · refine .bind hd (.readOnly hd (exactlyTwo_state l)) fun p => ?_
      refine .bind hd (.readOnly hd (stringify_state _)) fun name => ?_
      exact .bind hd (.readOnly hd (openFile_state _)) fun code => hr code
    · exact keeps_directiveRam hd (fun s n _ => tok_same rfl rfl) l
    · exact tok_section d l

theorem tok_execDirective (hs : Substitutes P) {d : Dialect} (env : Env) (rec : Str → M Unit) (hr : ∀ c, Keeps (TokRel P) (rec c))
    (hc : CustomKeeps d env (TokRel P)) {l : List Str} (hl : ∀ tok ∈ l, P tok) : Keeps (TokRel P) (execDirective d env rec l) := by
  refine .bind' (tokData P) (.get (tokData P)) fun s s0 s1 hs1 => ?_
  injection hs1 with h1 h2; injection h1 with h1; subst h1; subst h2
  intro h
  have hg := sub_good hs h.1 hl 1
  simp only
  generalize substituteWithDict l s.defines 1 = tokens at hg
  cases tokens with
  | nil => exact h
  | cons t rest =>
    simp only
    cases hf : lookupDirective d env rec (d.key (t.drop 1)) with
    | none => exact h
    | some f =>
      unfold lookupDirective at hf
      split at hf
      · rename_i g hgg
        injection hf with hf; subst hf
        exact hc _ _ hgg _ s h
      · have := mem_of_dget hf
        rw [List.mem_map] at this
        obtain ⟨p, hp, he⟩ := this
        injection he with _ he; subst he
        exact tok_builtin env rec hr p hp _ hg s h

theorem tok_execStmt (hs : Substitutes P) {d : Dialect} (env : Env) (depth : Nat) (rec : Str → M Unit) (hr : ∀ c, Keeps (TokRel P) (rec c))
    (hc : CustomKeeps d env (TokRel P)) {st : Stmt} (hl : ∀ tok ∈ st.tokens, P tok) : Keeps (TokRel P) (execStmt d env depth rec st) := by
  unfold execStmt
  split
  · exact tok_execInstr hs d _ _ _ hl
  · exact tok_execDirective hs env rec hr hc hl
  · intro s
    unfold execLabel
    repeat' split
    all_goals exact tok_same rfl rfl

/-- The tokens of every text satisfy `P`. -/
def Tokens (P : Str → Prop) : Prop := ∀ tok, TokenShape tok → P tok

theorem tok_assemble (hs : Substitutes P) (ht : Tokens P) {d : Dialect} (env : Env) (hc : CustomKeeps d env (TokRel P)) :
    ∀ n code, Keeps (TokRel P) (assemble d env n code)
  | 0, code => .throw (tokData P) _
  | n + 1, code => by
    have hd := tokData P
    intro s
    unfold assemble
    rw [bind_eq, lift_eq]
    cases htk : tokenize code with
    | error e => exact fun h => h
    | ok ss =>
      refine Keeps.bind hd (.forEach hd fun st hst => ?_) (fun _ => .bind hd (keeps_finalFill hd d) fun _ => tok_closeSection) s
      exact tok_execStmt hs env n _ (tok_assemble hs ht env hc n) hc fun tok htok => ht tok ((C07_shape code ss htk st hst).1 tok htok)

/-- Every token of a line of a program satisfies `P`. -/
theorem tok_visits (hs : Substitutes P) (ht : Tokens P) {d : Dialect} {env : Env} (hc : CustomKeeps d env (TokRel P)) {s s1 a e : St} {t : Str} {rest : List Str}
    {n : Nat} {p : Part} (h : Visits d env s t rest s1 n p a e) (ha : GoodSt P a)
    (hp : match p with | .stmt st => ∀ tok ∈ st.tokens, P tok | .instr _ tokens _ => ∀ tok ∈ tokens, P tok | _ => True) : ∀ tok ∈ t :: rest, P tok := by
  have hd := tokData P
  have run : ∀ {m : M Unit} {a b : St}, Keeps (TokRel P) m → Runs m a b → GoodSt P a → GoodSt P b := by
    intro m a b hk hr hg
    have := hk a hg
    rw [show m a = (.ok (), b) from hr] at this
    exact this
  induction h with
  | sources h1 _ _ ih => exact ih (run (.forEach hd fun c _ => tok_assemble hs ht env hc _ c) h1 ha) trivial
  | @source n code pre post st a b c e htk h1 _ _ ih =>
    have hst : ∀ st' ∈ pre ++ st :: post, ∀ tok ∈ st'.tokens, P tok := fun st' hst' tok htok => ht tok ((C07_shape code _ htk st' hst').1 tok htok)
    exact ih (run (.forEach hd fun c hc' => tok_execStmt hs env _ _ (tok_assemble hs ht env hc _) hc (hst c (by simp [hc']))) h1 ha) (hst st (by simp))
  | included _ _ _ _ _ _ ih => exact ih ha trivial
  | instr _ ih => exact ih ha hp
  | line _ hsub _ _ _ =>
    rw [← hsub]
    exact sub_good hs ha.1 hp 0
  | expanded _ hsub _ h1 _ h2 hlook hbody hdict h3 _ _ _ ih =>
    have hg := sub_good hs ha.1 hp 0
    rw [hsub] at hg
    have hargs := fun x hx => hg x (List.mem_cons_of_mem _ hx)
    have hb := run (.forEach hd fun i _ => tok_macroStep hs (fun r st hst => tok_execInstr hs d _ r st hst) _ _ hargs i) h2 (run (tok_writeBack hg _) h1 ha)
    rw [← dget_eq_lookup] at hlook
    have hbt := hb.2 _ (mem_of_dget hlook) _ (List.mem_of_getElem? hbody)
    have hbs := sub_good hs (macroDict_good hargs (by intro e he; cases he) hdict) hbt 0
    exact ih (run (tok_setBody hbs _ _) h3 hb) hbs

end

end Necro
