import Verif.Lemmas.Lookup
import Verif.Lemmas.Tokenizer
import Verif.Props.Tokenizer
/-!
# No section is ever given the empty name

A quoted token has at least one character between its quotes, and define substitution
does not change that.
-/

namespace Necro
open Spec
open M (throw get modify lift forEach times)

/-- Not empty, and not an empty literal. -/
def GoodTok (t : Str) : Prop := ∃ c r, t = c :: r ∧ (isQuote c = true → 2 ≤ r.length)

theorem goodTok_append {t : Str} (h : GoodTok t) (u : Str) : GoodTok (t ++ u) := by
  obtain ⟨c, r, rfl, h⟩ := h
  exact ⟨c, r ++ u, rfl, fun hq => by have := h hq; simp; omega⟩

theorem subst_ne_nil {look : Str → Str} (hl : ∀ r, r ≠ [] → look r ≠ []) {s t : Str} (h : Subst look s t)
    (hs : s ≠ []) : t ≠ [] := by
  cases h with
  | nil => exact absurd rfl hs
  | sep c s t _ _ => simp
  | run r s t hr _ _ _ => simp [hl r hr]

theorem nameChar_quote {c : Char} (h : isQuote c = true) : nameChar c = false := by
  simp [isQuote] at h
  rcases h with rfl | rfl <;> decide

theorem subst_length_two {look : Str → Str} (hl : ∀ r, r ≠ [] → look r ≠ []) {s t : Str} (h : Subst look s t)
    {body : Str} {q : Char} (hs : s = body ++ [q]) (hb : body ≠ []) (hq : nameChar q = false) : 2 ≤ t.length := by
  cases h with
  | nil => simp at hs
  | sep c s' t' hc hst =>
    cases body with
    | nil => exact absurd rfl hb
    | cons x body =>
      simp at hs
      have := subst_ne_nil hl hst (by rw [hs.2]; simp)
      cases t' with
      | nil => exact absurd rfl this
      | cons _ _ => simp
  | run r s' t' hr hrc _ hst =>
    have hs' : s' ≠ [] := by
      intro e; subst e
      simp at hs
      have := hrc q (by rw [hs]; simp)
      rw [hq] at this; simp at this
    have h1 := subst_ne_nil hl hst hs'
    have h2 := hl r hr
    simp only [List.length_append]
    have : 0 < t'.length := List.length_pos_iff.2 h1
    have : 0 < (look r).length := List.length_pos_iff.2 h2
    omega

theorem isQuote_name {c : Char} (h : nameChar c = true) : isQuote c = false := by
  cases hq : isQuote c with
  | false => rfl
  | true => rw [nameChar_quote hq] at h; simp at h

theorem isQuote_plain {c : Char} (h : plainChar c = true) : isQuote c = false := by
  cases hq : isQuote c with
  | false => rfl
  | true =>
    simp [isQuote] at hq
    rcases hq with rfl | rfl <;> exact absurd h (by decide)

theorem goodTok_sub {m : List (Str × Str)} (hm : ∀ p ∈ m, GoodTok p.2) {t : Str} (ht : TokenShape t) :
    GoodTok (subToken m t) := by
  unfold subToken
  cases hg : dget m t with
  | some v => exact hm _ (mem_of_dget hg)
  | none =>
    simp only
    obtain ⟨u, hu, hs⟩ := subScan_spec m t [] [] (by simp)
    rw [hu]
    simp only [List.nil_append] at hs ⊢
    have hgood : ∀ r, r ≠ [] → (∀ c ∈ r, nameChar c = true) → GoodTok (subRun m r) := by
      intro r hr hc
      unfold subRun
      cases hg : dget m r with
      | some v => exact hm _ (mem_of_dget hg)
      | none =>
        cases r with
        | nil => exact absurd rfl hr
        | cons c r =>
          refine ⟨c, r, rfl, fun hq => ?_⟩
          rw [isQuote_name (hc c (by simp))] at hq; simp at hq
    have hl : ∀ r, r ≠ [] → subRun m r ≠ [] := by
      intro r hr
      unfold subRun
      cases hg : dget m r with
      | some v =>
        obtain ⟨c, w, e, _⟩ := hm _ (mem_of_dget hg)
        simp only at e ⊢
        rw [e]; simp
      | none => exact hr
    have quoted : ∀ q body, isQuote q = true → body ≠ [] → Subst (subRun m) (q :: body ++ [q]) u → GoodTok u := by
      intro q body hq hb hs
      generalize hz : q :: body ++ [q] = z at hs
      cases hs with
      | nil => simp at hz
      | sep c s' t' hc hst =>
        simp at hz
        obtain ⟨rfl, rfl⟩ := hz
        exact ⟨q, t', rfl, fun _ => subst_length_two hl hst rfl hb (nameChar_quote hq)⟩
      | run r s' t' hr hrc _ hst =>
        cases r with
        | nil => exact absurd rfl hr
        | cons x r =>
          simp at hz
          have := hrc x (by simp)
          rw [← hz.1, nameChar_quote hq] at this; simp at this
    cases ht with
    | plain _ hne hp =>
      cases hs with
      | nil => exact absurd rfl hne
      | sep c s' t' hc hst =>
        refine ⟨c, t', rfl, fun hq => ?_⟩
        rw [isQuote_plain (hp c (by simp))] at hq; simp at hq
      | run r s' t' hr hrc _ hst => exact goodTok_append (hgood r hr hrc) _
    | bracket c hc =>
      have hn : nameChar c = false ∧ isQuote c = false := by
        have : ∀ c ∈ "()[]{}".toList, nameChar c = false ∧ isQuote c = false := by decide
        exact this c hc
      generalize hz : [c] = z at hs
      cases hs with
      | nil => simp at hz
      | sep x s' t' hx hst =>
        simp at hz
        obtain ⟨rfl, rfl⟩ := hz
        exact ⟨c, t', rfl, fun hq => by rw [hn.2] at hq; simp at hq⟩
      | run r s' t' hr hrc _ hst =>
        cases r with
        | nil => exact absurd rfl hr
        | cons x r =>
          simp at hz
          have := hrc x (by simp)
          rw [← hz.1, hn.1] at this; simp at this
    | str body hb => exact quoted '"' body (by decide) hb hs
    | chr body hb => exact quoted '\'' body (by decide) hb hs

/-- All define values are good tokens and no section has the empty name. -/
def NamesOk (s : St) : Prop := (∀ p ∈ s.defines, GoodTok p.2) ∧ [] ∉ dkeys s.sections

/-- Defines and section names stay as they are. -/
def SameNames (s s' : St) : Prop := s'.defines = s.defines ∧ dkeys s'.sections = dkeys s.sections

theorem SameNames.ok {s s' : St} (h : SameNames s s') (hs : NamesOk s) : NamesOk s' := by
  unfold NamesOk
  rw [h.1, h.2]; exact hs

theorem rel_sameNames : InstrRel SameNames where
  refl := fun _ => ⟨rfl, rfl⟩
  trans := fun h1 h2 => ⟨by rw [h2.1, h1.1], by rw [h2.2, h1.2]⟩
  append := fun _ _ => ⟨rfl, rfl⟩
  reloc := fun _ _ => ⟨rfl, rfl⟩
  macros := fun _ _ => ⟨rfl, rfl⟩

theorem dset_mem {α β : Type} [DecidableEq α] {l : List (α × β)} {k : α} {v : β} {p : α × β} (h : p ∈ dset l k v) :
    p ∈ l ∨ p.2 = v := by
  induction l with
  | nil => simp [dset] at h; right; rw [h]
  | cons x l ih =>
    obtain ⟨a, b⟩ := x
    simp only [dset] at h
    split at h
    · simp at h; rcases h with rfl | h
      · right; rfl
      · left; simp [h]
    · simp at h; rcases h with rfl | h
      · left; simp
      · rcases ih h with h | h
        · left; simp [h]
        · right; exact h

theorem stringify_good {t : Str} (ht : GoodTok t) {s s' : St} {n : Str} (h : stringify t s = (.ok n, s')) : n ≠ [] := by
  obtain ⟨c, r, rfl, hq⟩ := ht
  have e : stringify (c :: r) s = (if isQuote c then (Pure.pure (unquote (c :: r)) : M Str) else Pure.pure (c :: r)) s := rfl
  rw [e] at h
  split at h
  · rename_i hc
    rw [pure_eq] at h
    simp at h
    rw [← h.1]
    have := hq hc
    intro e
    have : (unquote (c :: r)).length = r.length - 1 := by simp [unquote]
    rw [e] at this; simp at this; omega
  · rw [pure_eq] at h; simp at h; rw [← h.1]; simp

theorem closeSection_sameNames : Keeps SameNames closeSection := fun s => by
  refine ⟨?_, closeSection_keys s⟩
  unfold closeSection
  repeat' split
  all_goals rfl

theorem changeOrg_sameNames (d : Dialect) (a b : Int) : Keeps SameNames (changeOrg d a b) := fun s => by
  refine ⟨?_, by rw [changeOrg_sections]⟩
  unfold changeOrg
  repeat' split
  all_goals rfl

theorem orgRel_sameNames : OrgRel SameNames :=
  { toDataRel := rel_sameNames.toDataRel, pad := fun _ _ => ⟨rfl, rfl⟩, org := fun _ _ _ _ _ _ => ⟨rfl, rfl⟩ }

def NamesRel (s s' : St) : Prop := NamesOk s → NamesOk s'

theorem names_sectionBody (d : Dialect) (n p : Str) (o : Option Str) (hn : GoodTok n) (s : St) :
    NamesRel s (sectionBody d n p o s).2 := by
  intro hs
  unfold sectionBody
  rw [bind_eq]
  have hst := stringify_state n s
  rcases h1 : stringify n s with ⟨r, s1⟩
  rw [h1] at hst
  simp only at hst; subst hst
  cases r with
  | error e => exact hs
  | ok name =>
    have hne := stringify_good hn h1
    simp only [bind_eq, get_eq]
    split
    · exact hs
    · split
      · exact hs
      · have fin : ∀ s2 : St, NamesOk s2 → NamesOk ((closeSection >>= fun _ => modify fun s =>
              let sec : Section := { start := s.pc, offset := s.bytes.length, permissions := p }
              { s with curSection := some name, sections := dset s.sections name sec }) s2).2 := by
          intro s2 hs2
          rw [bind_eq]
          have hc := closeSection_sameNames s2
          rcases h2 : closeSection s2 with ⟨r, s3⟩
          rw [h2] at hc
          have h3 := hc.ok hs2
          cases r with
          | error e => exact h3
          | ok _ =>
            refine ⟨h3.1, ?_⟩
            simp only [modify_eq]
            intro hm
            rw [dkeys_dset] at hm
            split at hm
            · exact h3.2 hm
            · simp at hm
              rcases hm with hm | hm
              · exact h3.2 hm
              · exact hne hm
        cases o with
        | none => exact fin s1 hs
        | some tok =>
          simp only [bind_eq]
          have hp := parseArg_state d tok 64 s1
          rcases h2 : parseArg d tok 64 s1 with ⟨r, s2⟩
          rw [h2] at hp
          simp only at hp; subst hp
          cases r with
          | error e => exact hs
          | ok start =>
            simp only
            have hc := (changeOrg_sameNames d start 0 s2).ok hs
            rcases h3 : changeOrg d start 0 s2 with ⟨r, s3⟩
            rw [h3] at hc
            cases r with
            | error e => exact hc
            | ok _ => exact fin s3 hc

theorem names_builtin (d : Dialect) (env : Env) (rec : Str → M Unit) (hr : ∀ c, Keeps NamesRel (rec c)) (t : Str) (args : List Str)
    (ha : ∀ a ∈ args, GoodTok a) : ∀ p ∈ builtinDirective d env rec, ∀ s, NamesRel s (p.2 (t :: args) s).2 := by
  intro p hp s hs
  have hd := rel_sameNames.toDataRel
  have data : p ∈ dataDirectives d env ∨ p ∈ ([
      ("macro", directiveMacro d),
      ("endmacro", fun _ => directiveEndMacro),
      ("define", directiveDefine),
      ("log", directiveLog),
      ("repeat", directiveRepeat d),
      ("endrepeat", fun _ => directiveEndRepeat),
      ("export", directiveExport),
      ("org", directiveOrg d),
      ("include", directiveInclude env rec),
      ("ram", directiveRam d),
      ("section", directiveSection d)] : List (String × (List Str → M Unit))) := by
    simp only [builtinDirective, dataDirectives, List.mem_cons, List.not_mem_nil, or_false] at hp ⊢
    rcases hp with hp | hp | hp | hp | hp | hp | hp | hp | hp | hp | hp | hp | hp | hp | hp | hp | hp |
      hp | hp | hp | hp | hp | hp | hp | hp | hp | hp | hp | hp | hp <;> simp [hp]
  rcases data with h | h
  · exact (keeps_dataDirectives hd d env p h _ s).ok hs
  · simp only [List.mem_cons, List.not_mem_nil, or_false] at h
    rcases h with rfl | rfl | rfl | rfl | rfl | rfl | rfl | rfl | rfl | rfl | rfl
    · exact (keeps_directiveMacro rel_sameNames (fun _ _ => ⟨rfl, rfl⟩) d _ s).ok hs
    · exact (keeps_directiveEndMacro hd (fun _ _ => ⟨rfl, rfl⟩) s).ok hs
    · show NamesOk (directiveDefine (t :: args) s).2
      rcases args with _ | ⟨n, _ | ⟨v, _ | ⟨_, _⟩⟩⟩
      · exact hs
      · exact hs
      · refine ⟨fun q hq => ?_, hs.2⟩
        rcases dset_mem hq with h | h
        · exact hs.1 q h
        · rw [h]; exact ha v (by simp)
      · exact hs
    · exact (keeps_directiveLog hd (fun _ _ => ⟨rfl, rfl⟩) _ s).ok hs
    · exact (keeps_directiveRepeat hd (fun _ _ => ⟨rfl, rfl⟩) d _ s).ok hs
    · exact (keeps_directiveEndRepeat hd (fun _ _ => ⟨rfl, rfl⟩) s).ok hs
    · exact (keeps_directiveExport hd (fun _ _ _ => ⟨rfl, rfl⟩) _ s).ok hs
    · exact (keeps_directiveOrg (d := d) orgRel_sameNames _ s).ok hs
    · have hdn : DataRel NamesRel :=
        { refl := fun _ h => h, trans := fun h1 h2 h => h2 (h1 h), append := fun _ _ h => h, reloc := fun _ _ h => h }
      have : Keeps NamesRel (directiveInclude env rec (t :: args)) := by
        refine .bind hdn (.readOnly hdn (exactlyTwo_state _)) fun p => ?_
        refine .bind hdn (.readOnly hdn (stringify_state _)) fun name => ?_
        refine .bind hdn (.readOnly hdn (openFile_state _)) fun code => ?_
        exact hr code
      exact this s hs
    · exact (keeps_directiveRam (d := d) hd (fun _ _ _ => ⟨rfl, rfl⟩) _ s).ok hs
    · show NamesOk (directiveSection d (t :: args) s).2
      rcases args with _ | ⟨n, _ | ⟨p, _ | ⟨o, _ | ⟨_, _⟩⟩⟩⟩
      · exact hs
      · exact hs
      · exact names_sectionBody d n p none (ha n (by simp)) s hs
      · exact names_sectionBody d n p (some o) (ha n (by simp)) s hs
      · exact hs

theorem names_execDirective (d : Dialect) (env : Env) (rec : Str → M Unit) (hr : ∀ c, Keeps NamesRel (rec c))
    (hc : CustomKeeps d env NamesRel) (tokens : List Str) (ht : ∀ t ∈ tokens, TokenShape t) (s : St) :
    NamesRel s (execDirective d env rec tokens s).2 := by
  intro hs
  unfold execDirective
  rw [bind_eq, get_eq]
  simp only
  cases tokens with
  | nil => simpa [substituteWithDict, throw_eq] using hs
  | cons t args =>
    simp only [substitute_cons]
    cases hf : lookupDirective d env rec (d.key (t.drop 1)) with
    | none => exact hs
    | some f =>
      simp only
      unfold lookupDirective at hf
      split at hf
      · rename_i g hg
        injection hf with hf; subst hf
        exact hc _ _ hg _ _ hs
      · have := mem_of_dget hf
        rw [List.mem_map] at this
        obtain ⟨p, hp, he⟩ := this
        injection he with _ he; subst he
        refine names_builtin d env rec hr t _ ?_ p hp s hs
        intro a ha
        simp [substituteWithDict] at ha
        obtain ⟨x, hx, rfl⟩ := ha
        exact goodTok_sub hs.1 (ht x (by simp [hx]))

theorem names_assemble (d : Dialect) (env : Env) (hc : CustomKeeps d env NamesRel) :
    ∀ depth code, Keeps NamesRel (assemble d env depth code) := by
  intro depth
  have hdn : DataRel NamesRel :=
    { refl := fun _ h => h, trans := fun h1 h2 h => h2 (h1 h), append := fun _ _ h => h, reloc := fun _ _ h => h }
  induction depth with
  | zero => intro code; exact .throw hdn _
  | succ n ih =>
    intro code
    refine .bind' hdn (.lift hdn _) fun s stmts s' hs => ?_
    rw [lift_eq] at hs
    have hok : tokenize code = .ok stmts := by simpa using congrArg Prod.fst hs
    have hshape := fun st h => (C07_shape code stmts hok st h).1
    have : Keeps NamesRel (execStmts d env n (assemble d env n) stmts) := by
      refine .bind hdn (.forEach hdn fun st hst => ?_) fun _ => ?_
      · intro s hs
        unfold execStmt
        cases st.kind
        · exact (keeps_execInstr rel_sameNames d _ _ _ s).ok hs
        · exact names_execDirective d env _ ih hc _ (hshape st hst) s hs
        · refine SameNames.ok ?_ hs
          simp only [execLabel]
          repeat' split
          all_goals exact ⟨rfl, rfl⟩
      · exact .bind hdn (fun s hs => (keeps_finalFill rel_sameNames.toDataRel d s).ok hs)
          fun _ s hs => (closeSection_sameNames s).ok hs
    exact this s'

end Necro
