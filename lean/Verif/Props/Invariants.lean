import Verif.Lemmas.Names
import Verif.Spec.Text
import Verif.Model.Cpu.Mos6502
/-!
# C19, C20, C21, C27, C28: what holds through every history

The theorems quantify over every source, every start state, and over success and failure
alike.  `d.directives env` are the directives an assembler class adds to the base
assembler; the theorems assume of them what they prove of the built-in ones.  The 6502,
68000, PowerPC, Thumb and MIPS assemblers add none, so `noCustom` discharges the assumption.
-/

namespace Necro
open Spec
open M (throw get modify lift forEach times)

theorem noCustom {d : Dialect} {env : Env} (h : ∀ k, d.directives env k = none) (R : St → St → Prop) :
    CustomKeeps d env R := by
  intro key f hf
  rw [h key] at hf; simp at hf

/-- The states an assembler object can be in: new, or after assembling a further source,
whether that succeeded or raised. -/
inductive Reach (d : Dialect) (env : Env) : St → Prop
  | init : Reach d env d.init
  | step (depth : Nat) (code : Str) (s : St) : Reach d env s → Reach d env (assemble d env depth code s).2

theorem reach_of_rel {d : Dialect} {env : Env} {R : St → St → Prop} (h : AsmRel d R) (hc : CustomKeeps d env R)
    {s : St} (hr : Reach d env s) : R d.init s := by
  induction hr with
  | init => exact h.refl _
  | step depth code s _ ih => exact h.trans ih (keeps_assemble h env hc depth code s)

/-! ## C19 -/

theorem rel_bytes (d : Dialect) : AsmRel d (fun s s' => s.bytes <+: s'.bytes) where
  refl := fun s => List.prefix_refl _
  trans := fun h1 h2 => h1.trans h2
  append := fun s b => List.prefix_append _ _
  reloc := fun s r => List.prefix_refl _
  macros := fun s m => List.prefix_refl _
  recording := fun s m => List.prefix_refl _
  rep := fun s m => List.prefix_refl _
  log := fun s m => List.prefix_refl _
  defines := fun s m => List.prefix_refl _
  exports := fun s m _ => List.prefix_refl _
  pad := fun s b => List.prefix_append _ _
  org := fun s a b _ _ _ => List.prefix_refl _
  ram := fun s n _ => List.prefix_refl _
  label := fun s k _ _ _ _ => List.prefix_refl _
  closeSec := fun s n sec _ _ _ => List.prefix_refl _
  openSec := fun s n p _ _ _ => List.prefix_refl _

/-- C19: assembling any source, in any state, whether it succeeds or raises, only appends. -/
theorem C19_assemble (d : Dialect) (env : Env)
    (hc : CustomKeeps d env (fun s s' => s.bytes <+: s'.bytes)) (depth : Nat) (code : Str) (s : St) :
    s.bytes <+: (assemble d env depth code s).2.bytes :=
  keeps_assemble (rel_bytes d) env hc depth code s

/-- C19 for a single statement. -/
theorem C19_statement (d : Dialect) (env : Env)
    (hc : CustomKeeps d env (fun s s' => s.bytes <+: s'.bytes)) (depth n : Nat) (st : Stmt) (s : St) :
    s.bytes <+: (execStmt d env depth (assemble d env n) st s).2.bytes :=
  keeps_execStmt (rel_bytes d) env depth _ (fun c => keeps_assemble (rel_bytes d) env hc n c) hc st s

example : CustomKeeps mos6502 {} (fun s s' => s.bytes <+: s'.bytes) := noCustom (fun _ => rfl) _

/-! ## C20 -/

/-- The pc moved by the number of bytes emitted; origin, labels and sections did not change. -/
structure Advances (s s' : St) : Prop where
  org : s'.org = s.org
  orgEnd : s'.orgEnd = s.orgEnd
  labels : s'.labels = s.labels
  sections : s'.sections = s.sections
  curSection : s'.curSection = s.curSection
  pc : s'.pc - s.pc = (s'.bytes.length : Int) - s.bytes.length

theorem rel_advances : MetaRel Advances where
  refl := fun s => ⟨rfl, rfl, rfl, rfl, rfl, by omega⟩
  trans := fun h1 h2 => ⟨by rw [h2.org, h1.org], by rw [h2.orgEnd, h1.orgEnd], by rw [h2.labels, h1.labels],
    by rw [h2.sections, h1.sections], by rw [h2.curSection, h1.curSection], by have := h1.pc; have := h2.pc; omega⟩
  append := fun s b => ⟨rfl, rfl, rfl, rfl, rfl, by simp [St.pc]; omega⟩
  reloc := fun s r => ⟨rfl, rfl, rfl, rfl, rfl, by simp [St.pc, addReloc]⟩
  macros := fun s m => ⟨rfl, rfl, rfl, rfl, rfl, by simp [St.pc]⟩
  recording := fun s m => ⟨rfl, rfl, rfl, rfl, rfl, by simp [St.pc]⟩
  rep := fun s m => ⟨rfl, rfl, rfl, rfl, rfl, by simp [St.pc]⟩
  log := fun s m => ⟨rfl, rfl, rfl, rfl, rfl, by simp [St.pc]⟩
  defines := fun s m => ⟨rfl, rfl, rfl, rfl, rfl, by simp [St.pc]⟩
  exports := fun s m _ => ⟨rfl, rfl, rfl, rfl, rfl, by simp [St.pc]⟩

/-- C20 for instructions, macro invocations included, whatever the handler does. -/
theorem C20_instruction (d : Dialect) (depth : Nat) (ref : StmtRef) (st : Stmt) (s : St) :
    Advances s (execInstr d depth ref st s).2 :=
  keeps_execInstr rel_advances.toInstrRel d depth ref st s

/-- The built-in directives other than `.org`, `.section`, `.ram` and `.include`. -/
def steadyNames : List String :=
  ["macro", "endmacro", "incbin", "inccsv", "inccsv_le16", "incjson", "define", "db", "byte", "dw", "word",
   "dd", "dl", "dword", "db_to_ascii", "dw_to_ascii", "db_to_asciiz", "dw_to_asciiz", "fill", "log", "align",
   "repeat", "endrepeat", "goto", "upto", "export"]

/-- C20 for directives. -/
theorem C20_directive (d : Dialect) (env : Env) (rec : Str → M Unit) (name : String) (hn : name ∈ steadyNames)
    (hc : d.directives env (d.key name.toList) = none) (t : Str) (ht : IsDirectiveToken d t name)
    (args : List Str) (s : St) : Advances s (execDirective d env rec (t :: args) s).2 := by
  have hin : ∃ f, (name, f) ∈ quietDirectives d env ∧ (name, f) ∈ builtinDirective d env rec := by
    simp only [steadyNames, List.mem_cons, List.not_mem_nil, or_false] at hn
    rcases hn with rfl | rfl | rfl | rfl | rfl | rfl | rfl | rfl | rfl | rfl | rfl | rfl | rfl | rfl | rfl |
      rfl | rfl | rfl | rfl | rfl | rfl | rfl | rfl | rfl | rfl | rfl
    all_goals
      simp only [quietDirectives, dataDirectives, builtinDirective, List.mem_append, List.mem_cons,
        List.not_mem_nil, or_false, Prod.mk.injEq, String.reduceEq, false_and, false_or, true_and, or_false]
      exact ⟨_, by first | exact rfl | exact .inl rfl, rfl⟩
  obtain ⟨f, hq, hb⟩ := hin
  have he := exec_builtin hb hc ht args s
  rw [he]
  exact keeps_quiet rel_advances d env _ hq _ s

theorem rel_pc_nonneg (d : Dialect) :
    AsmRel d (fun s s' => 0 ≤ s.org ∧ 0 ≤ s.counter → 0 ≤ s'.org ∧ 0 ≤ s'.counter) where
  refl := fun s h => h
  trans := fun h1 h2 h => h2 (h1 h)
  append := fun s b h => ⟨h.1, by simp; omega⟩
  reloc := fun s r h => h
  macros := fun s m h => h
  recording := fun s m h => h
  rep := fun s m h => h
  log := fun s m h => h
  defines := fun s m h => h
  exports := fun s m _ h => h
  pad := fun s b h => h
  org := fun s a b ha _ _ _ => ⟨ha, by simp⟩
  ram := fun s n hn h => ⟨h.1, by simp; omega⟩
  label := fun s k _ _ _ _ h => h
  closeSec := fun s n sec _ _ _ h => h
  openSec := fun s n p _ _ _ h => h

/-- C20: the pc of a reachable state is never negative. -/
theorem C20_pc_nonneg (d : Dialect) (env : Env)
    (hc : CustomKeeps d env (fun s s' => 0 ≤ s.org ∧ 0 ≤ s.counter → 0 ≤ s'.org ∧ 0 ≤ s'.counter))
    (s : St) (h : Reach d env s) : 0 ≤ s.pc := by
  have := reach_of_rel (rel_pc_nonneg d) hc h ⟨by simp [Dialect.init], by simp [Dialect.init]⟩
  simp only [St.pc]; omega

/-- A `.ram` moves the pc without emitting: the exclusion in `steadyNames` is needed. -/
example : (execDirective mos6502 {} (fun _ => pure ()) [".ram".toList, "4".toList] {}).2.pc = 4 ∧
    (execDirective mos6502 {} (fun _ => pure ()) [".ram".toList, "4".toList] {}).2.bytes = [] := by decide +kernel
example : IsDirectiveToken mos6502 ".DB".toList "db" ∧ (mos6502.directives {} (mos6502.key "db".toList)).isNone := by
  unfold IsDirectiveToken; decide

/-! ## C21 -/

/-- C21: exactly when a label statement is accepted, and what it does. -/
theorem C21_define_iff (d : Dialect) (tokens : List Str) (s s' : St) :
    execLabel d tokens s = (.ok (), s') ↔
    ∃ name rest, tokens = name :: rest ∧ s.recording = none ∧ name ∉ s.labels.map Prod.fst ∧
      (∀ c ∈ name, nameChar c = true) ∧ parseInteger d.sy s.labels name 64 false = .ok none ∧
      s' = { s with labels := s.labels ++ [(name, ⟨s.counter, s.org, s.curSection⟩)] } := by
  have hv : ∀ name : Str, isValidName name = true ↔ ∀ c ∈ name, nameChar c = true := by
    intro name
    simp only [isValidName, List.all_eq_true, nameChar_eq]
  unfold execLabel
  constructor
  · intro h
    split at h
    · simp at h
    · rename_i hrec
      split at h
      · simp at h
      · rename_i name rest
        split at h
        · simp at h
        · rename_i hm
          split at h
          · simp at h
          · rename_i hval
            split at h
            · simp at h
            · simp at h
            · rename_i hp
              simp only [Prod.mk.injEq, true_and] at h
              have hm' : name ∉ dkeys s.labels := by
                rw [← dmem_false_iff]; simpa using hm
              refine ⟨name, rest, rfl, hrec, hm', (hv name).1 (by simpa using hval), hp, ?_⟩
              rw [← h, dset_new _ _ _ hm']
  · rintro ⟨name, rest, rfl, hrec, hm, hval, hp, rfl⟩
    have hm' : dmem s.labels name = false := (dmem_false_iff _ _).2 hm
    simp [hrec, hm', (hv name).2 hval, hp, dset_new _ _ _ hm]

/-- C21: the address of a new label is the pc. -/
theorem C21_address (d : Dialect) (name : Str) (rest : List Str) (s s' : St)
    (h : execLabel d (name :: rest) s = (.ok (), s')) :
    ∃ l, s'.labels.lookup name = some l ∧ l.org + l.base = s.pc ∧ l.sect = s.curSection := by
  obtain ⟨n, r, he, _, hm, _, _, rfl⟩ := (C21_define_iff d _ s s').1 h
  injection he with h1 h2; subst h1 h2
  refine ⟨⟨s.counter, s.org, s.curSection⟩, ?_, rfl, rfl⟩
  rw [← dget_eq_lookup, dget_append, (dget_none_iff _ _).2 hm]
  simp [dget]

/-- C21: a rejected label statement changes nothing. -/
theorem C21_reject (d : Dialect) (tokens : List Str) (s s' : St) (e : Err)
    (h : execLabel d tokens s = (.error e, s')) : s' = s := by
  unfold execLabel at h
  repeat' split at h
  all_goals simp at h
  all_goals exact h.2.symm

theorem rel_labels (d : Dialect) : AsmRel d (fun s s' => s.labels <+: s'.labels) where
  refl := fun s => List.prefix_refl _
  trans := fun h1 h2 => h1.trans h2
  append := fun s b => List.prefix_refl _
  reloc := fun s r => List.prefix_refl _
  macros := fun s m => List.prefix_refl _
  recording := fun s m => List.prefix_refl _
  rep := fun s m => List.prefix_refl _
  log := fun s m => List.prefix_refl _
  defines := fun s m => List.prefix_refl _
  exports := fun s m _ => List.prefix_refl _
  pad := fun s b => List.prefix_refl _
  org := fun s a b _ _ _ => List.prefix_refl _
  ram := fun s n _ => List.prefix_refl _
  label := fun s k _ hm _ _ => by
    rw [dset_new _ _ _ ((dmem_false_iff _ _).1 hm)]; exact List.prefix_append _ _
  closeSec := fun s n sec _ _ _ => List.prefix_refl _
  openSec := fun s n p _ _ _ => List.prefix_refl _

/-- C21: the label table only grows at the end. -/
theorem C21_append_only (d : Dialect) (env : Env)
    (hc : CustomKeeps d env (fun s s' => s.labels <+: s'.labels)) (depth : Nat) (code : Str) (s : St) :
    s.labels <+: (assemble d env depth code s).2.labels :=
  keeps_assemble (rel_labels d) env hc depth code s

/-- C21: a label once defined keeps its value for good. -/
theorem C21_write_once (d : Dialect) (env : Env)
    (hc : CustomKeeps d env (fun s s' => s.labels <+: s'.labels)) (depth : Nat) (code : Str) (s : St)
    (name : Str) (l : LabelInfo) (h : s.labels.lookup name = some l) :
    (assemble d env depth code s).2.labels.lookup name = some l := by
  obtain ⟨t, ht⟩ := C21_append_only d env hc depth code s
  rw [← ht, ← dget_eq_lookup, dget_append, dget_eq_lookup, h]
  rfl

/-- Every label of the table is a legal name that is no number in any context, and appears once. -/
def LabelsOk (d : Dialect) (ls : Labels) : Prop :=
  (ls.map Prod.fst).Nodup ∧ ∀ p ∈ ls, p.1 ≠ [] ∧ (∀ c ∈ p.1, nameChar c = true) ∧
    ∀ ls' n signed, parseInteger d.sy ls' p.1 n signed = .ok none

theorem parse_none_iff (sy : NumSyntax) (ls : Labels) (tok : Str) (n : Nat) (g : Bool) :
    parseInteger sy ls tok n g = .ok none ↔ internalParseInteger sy (getMathFormula tok).body = .ok none := by
  unfold parseInteger parseIntegerW
  simp only
  constructor
  · intro h
    split at h
    · simp at h
    · assumption
    · split at h
      · simp at h
      · split at h <;> simp at h
  · intro h; rw [h]

theorem parse_none_ne_nil {sy : NumSyntax} {ls : Labels} {tok : Str} {n : Nat} {g : Bool}
    (h : parseInteger sy ls tok n g = .ok none) : tok ≠ [] := by
  intro e; subst e
  rw [parse_none_iff] at h
  simp [getMathFormula, internalParseInteger, scanPost] at h

theorem rel_labelsOk (d : Dialect) : AsmRel d (fun s s' => LabelsOk d s.labels → LabelsOk d s'.labels) where
  refl := fun s h => h
  trans := fun h1 h2 h => h2 (h1 h)
  append := fun s b h => h
  reloc := fun s r h => h
  macros := fun s m h => h
  recording := fun s m h => h
  rep := fun s m h => h
  log := fun s m h => h
  defines := fun s m h => h
  exports := fun s m _ h => h
  pad := fun s b h => h
  org := fun s a b ha _ _ h => h
  ram := fun s n hn h => h
  label := fun s k _ hm hv hp h => by
    have hm' := (dmem_false_iff _ _).1 hm
    refine ⟨dkeys_nodup_dset _ _ _ h.1, ?_⟩
    simp only
    rw [dset_new _ _ _ hm']
    intro p hpm
    simp at hpm
    rcases hpm with hpm | rfl
    · exact h.2 p hpm
    · refine ⟨parse_none_ne_nil hp, ?_, ?_⟩
      · simpa only [isValidName, List.all_eq_true, nameChar_eq] using hv
      · intro ls' n g
        rw [parse_none_iff] at hp ⊢
        exact hp
  closeSec := fun s n sec _ _ _ h => h
  openSec := fun s n p _ _ _ h => h

/-- C21: the label table of any reachable state is well formed. -/
theorem C21_well_formed (d : Dialect) (env : Env)
    (hc : CustomKeeps d env (fun s s' => LabelsOk d s.labels → LabelsOk d s'.labels))
    (s : St) (h : Reach d env s) : LabelsOk d s.labels :=
  reach_of_rel (rel_labelsOk d) hc h ⟨by simp [Dialect.init], by simp [Dialect.init]⟩

example : execLabel mos6502 ["loop".toList] { org := 0x100, counter := 5 } =
    (.ok (), { org := 0x100, counter := 5, labels := [("loop".toList, ⟨5, 0x100, none⟩)] }) :=
  (C21_define_iff ..).2 ⟨_, _, rfl, rfl, by decide, by decide, by decide +kernel, rfl⟩

/-! ## C27 -/

/-- The sections of the list, in order, tile the output from `a` up to `b`: each starts
where the previous one ends. -/
def Tiles : List Section → Int → Int → Prop
  | [], a, b => a = b
  | sec :: rest, a, b => (sec.offset : Int) = a ∧ ∃ n, 0 ≤ n ∧ sec.size = some n ∧ Tiles rest (a + n) b

theorem tiles_append (l : List Section) (sec : Section) : ∀ a b, Tiles (l ++ [sec]) a b ↔
    ∃ n, 0 ≤ n ∧ sec.size = some n ∧ (sec.offset : Int) + n = b ∧ Tiles l a sec.offset := by
  induction l with
  | nil =>
    intro a b
    simp only [List.nil_append, Tiles]
    constructor
    · rintro ⟨h1, n, h2, h3, h4⟩; exact ⟨n, h2, h3, by omega, h1.symm⟩
    · rintro ⟨n, h2, h3, h4, h1⟩; exact ⟨h1.symm, n, h2, h3, by omega⟩
  | cons x l ih =>
    intro a b
    simp only [List.cons_append, Tiles, ih]
    constructor
    · rintro ⟨h1, m, h2, h3, n, h4, h5, h6, h7⟩; exact ⟨n, h4, h5, h6, h1, m, h2, h3, h7⟩
    · rintro ⟨n, h4, h5, h6, h1, m, h2, h3, h7⟩; exact ⟨h1, m, h2, h3, n, h4, h5, h6, h7⟩

theorem tiles_le : ∀ (l : List Section) (a b : Int), Tiles l a b → a ≤ b
  | [], a, b, h => by simp [Tiles] at h; omega
  | sec :: rest, a, b, h => by
    obtain ⟨_, n, h2, _, h4⟩ := h
    have := tiles_le rest _ _ h4
    omega

/-- Names are unique, the open section is the last one, all others are closed and tile the
output up to its start. -/
structure SectionsOk (s : St) : Prop where
  nodup : (s.sections.map Prod.fst).Nodup
  shape : (s.sections = [] ∧ s.curSection = none) ∨
    ∃ before name sec, s.sections = before ++ [(name, sec)] ∧ s.curSection = some name ∧
      sec.offset ≤ s.bytes.length ∧ ∃ a, 0 ≤ a ∧ Tiles (before.map Prod.snd) a sec.offset

def SectionsRel (s s' : St) : Prop :=
  s.sections.map Prod.fst <+: s'.sections.map Prod.fst ∧
  ([] ∉ s'.sections.map Prod.fst → SectionsOk s → SectionsOk s')

theorem sectionsOk_grow {s s' : St} (h : SectionsOk s) (hs : s'.sections = s.sections)
    (hc : s'.curSection = s.curSection) (hb : s.bytes.length ≤ s'.bytes.length) : SectionsOk s' := by
  refine ⟨by rw [hs]; exact h.nodup, ?_⟩
  rw [hs, hc]
  rcases h.shape with h | ⟨b, n, sec, h1, h2, h3, h4⟩
  · exact .inl h
  · exact .inr ⟨b, n, sec, h1, h2, by omega, h4⟩

theorem sectionsRel_grow {s s' : St} (hs : s'.sections = s.sections)
    (hc : s'.curSection = s.curSection) (hb : s.bytes.length ≤ s'.bytes.length) : SectionsRel s s' :=
  ⟨by rw [hs]; exact List.prefix_refl _, fun _ h => sectionsOk_grow h hs hc hb⟩

theorem dset_last {α β : Type} [DecidableEq α] (l : List (α × β)) (k : α) (v w : β) (hn : k ∉ l.map Prod.fst) :
    dset (l ++ [(k, v)]) k w = l ++ [(k, w)] := by
  induction l with
  | nil => simp [dset]
  | cons p l ih =>
    simp only [List.map_cons, List.mem_cons, not_or] at hn
    have : ¬ p.1 = k := fun e => hn.1 e.symm
    simp [dset, this, ih hn.2]

theorem rel_sections (d : Dialect) : AsmRel d SectionsRel where
  refl := fun s => ⟨List.prefix_refl _, fun _ h => h⟩
  trans := fun h1 h2 => ⟨h1.1.trans h2.1, fun h hi => h2.2 h (h1.2 (fun hm => h (h2.1.subset hm)) hi)⟩
  append := fun s b => sectionsRel_grow rfl rfl (by simp)
  reloc := fun s r => sectionsRel_grow rfl rfl (by simp [addReloc])
  macros := fun s m => sectionsRel_grow rfl rfl (by simp)
  recording := fun s m => sectionsRel_grow rfl rfl (by simp)
  rep := fun s m => sectionsRel_grow rfl rfl (by simp)
  log := fun s m => sectionsRel_grow rfl rfl (by simp)
  defines := fun s m => sectionsRel_grow rfl rfl (by simp)
  exports := fun s m _ => sectionsRel_grow rfl rfl (by simp)
  pad := fun s b => sectionsRel_grow rfl rfl (by simp)
  org := fun s a b ha _ _ => sectionsRel_grow rfl rfl (by simp)
  ram := fun s n hn => sectionsRel_grow rfl rfl (by simp)
  label := fun s k _ _ _ _ => sectionsRel_grow rfl rfl (by simp)
  closeSec := fun s n sec hcur hn hg => by
    have hmem : n ∈ dkeys s.sections := (dget_isSome_iff _ _).1 (by rw [hg]; rfl)
    have hk : dkeys (dset s.sections n { sec with stop := some s.pc, size := some ((s.bytes.length : Int) - sec.offset) }) = dkeys s.sections :=
      dkeys_dset_mem _ _ _ hmem
    refine ⟨by show dkeys s.sections <+: dkeys _; rw [hk]; exact List.prefix_refl _, fun _ hi => ⟨?_, ?_⟩⟩
    · show (dkeys _).Nodup; rw [hk]; exact hi.nodup
    · rcases hi.shape with h | ⟨b, m, sec', h1, h2, h3, h4⟩
      · rw [h.2] at hcur; simp at hcur
      · rw [h2] at hcur; injection hcur with hcur; subst hcur
        have hnd := hi.nodup
        rw [h1] at hnd
        have hnb : m ∉ b.map Prod.fst := by
          simp [List.nodup_append] at hnd
          intro hm
          simp at hm
          obtain ⟨x, hx⟩ := hm
          exact hnd.2 _ _ hx rfl
        have he : sec' = sec := by
          rw [h1, dget_append, (dget_none_iff _ _).2 hnb] at hg
          simpa [dget] using hg
        subst he
        refine .inr ⟨b, m, { sec' with stop := some s.pc, size := some ((s.bytes.length : Int) - sec'.offset) }, ?_, h2, h3, h4⟩
        show dset s.sections m _ = _
        rw [h1, dset_last _ _ _ _ hnb]
  openSec := fun s n p hm hp hclosed => by
    have hm' := (dmem_false_iff _ _).1 hm
    refine ⟨?_, ?_⟩
    · simp only; rw [dset_new _ _ _ hm', List.map_append]; exact List.prefix_append _ _
    · intro hne hi
      refine ⟨dkeys_nodup_dset _ _ _ hi.nodup, .inr ⟨s.sections, n, _, dset_new _ _ _ hm', rfl, Nat.le_refl _, ?_⟩⟩
      rcases hi.shape with h | ⟨b, m, sec', h1, h2, h3, a, h4, h5⟩
      · exact ⟨s.bytes.length, by omega, by rw [h.1]; simp [Tiles]⟩
      · simp only at hne
        have hmne : m ≠ [] := by
          intro e; subst e
          apply hne
          show [] ∈ dkeys _
          rw [dset_new _ _ _ hm', h1]; simp [dkeys]
        obtain ⟨sec, hg, _, hsz⟩ := hclosed m h2 hmne
        have hnd := hi.nodup
        rw [h1] at hnd
        have hnb : m ∉ b.map Prod.fst := by
          simp [List.nodup_append] at hnd
          intro hm
          simp at hm
          obtain ⟨x, hx⟩ := hm
          exact hnd.2 _ _ hx rfl
        have he : sec' = sec := by
          rw [h1, dget_append, (dget_none_iff _ _).2 hnb] at hg
          simpa [dget] using hg
        subst he
        refine ⟨a, h4, ?_⟩
        rw [h1]
        simp only [List.map_append, List.map_cons, List.map_nil]
        rw [tiles_append]
        exact ⟨_, by omega, hsz, by omega, h5⟩

/-- No section has the empty name (which the code would never close, assembler.py:206, 761):
the tokenizer produces no empty literal.  `GoodTok` says the predefined defines of the class
are neither empty nor empty literals. -/
theorem C27_no_empty_name (d : Dialect) (env : Env) (hdef : ∀ p ∈ d.defines, GoodTok p.2)
    (hn : CustomKeeps d env NamesRel) (s : St) (h : Reach d env s) : [] ∉ s.sections.map Prod.fst := by
  have : NamesOk s := by
    induction h with
    | init => exact ⟨hdef, by simp [Dialect.init, dkeys]⟩
    | step depth code s _ ih => exact names_assemble d env hn depth code s ih
  exact this.2

/-- C27: in any reachable state section names are unique, the open section is the last one,
and the others tile the output up to its start. -/
theorem C27_reach (d : Dialect) (env : Env) (hdef : ∀ p ∈ d.defines, GoodTok p.2)
    (hc : CustomKeeps d env SectionsRel) (hn : CustomKeeps d env NamesRel) (s : St)
    (h : Reach d env s) : SectionsOk s :=
  (reach_of_rel (rel_sections d) hc h).2 (C27_no_empty_name d env hdef hn s h)
    ⟨by simp [Dialect.init], .inl ⟨rfl, rfl⟩⟩

theorem execStmts_ends {d : Dialect} {env : Env} {depth : Nat} {rec : Str → M Unit} {stmts : List Stmt}
    {s s' : St} (h : execStmts d env depth rec stmts s = (.ok (), s')) :
    ∃ s1, closeSection s1 = (.ok (), s') := by
  unfold execStmts at h
  rw [bind_eq] at h
  rcases h1 : forEach stmts (execStmt d env depth rec) s with ⟨r, s1⟩
  rw [h1] at h
  cases r with
  | error e => simp at h
  | ok _ =>
    simp only [bind_eq] at h
    rcases h2 : finalFill d s1 with ⟨r, s2⟩
    rw [h2] at h
    cases r with
    | error e => simp at h
    | ok _ => exact ⟨s2, h⟩

theorem assemble_ends {d : Dialect} {env : Env} {depth : Nat} {code : Str} {s s' : St}
    (h : assemble d env depth code s = (.ok (), s')) : ∃ s1, closeSection s1 = (.ok (), s') := by
  cases depth with
  | zero => simp [assemble, throw_eq] at h
  | succ n =>
    unfold assemble at h
    rw [bind_eq, lift_eq] at h
    cases ht : tokenize code with
    | error e => rw [ht] at h; simp at h
    | ok stmts => rw [ht] at h; exact execStmts_ends h

/-- C27: after a successful assembly the sections tile the output up to its end. -/
theorem C27_partition (d : Dialect) (env : Env) (hdef : ∀ p ∈ d.defines, GoodTok p.2)
    (hc : CustomKeeps d env SectionsRel) (hn : CustomKeeps d env NamesRel) (depth : Nat)
    (code : Str) (s s' : St) (h : Reach d env s) (ha : assemble d env depth code s = (.ok (), s')) :
    s'.sections = [] ∨ ∃ a, 0 ≤ a ∧ Tiles (s'.sections.map Prod.snd) a s'.bytes.length := by
  have hr : Reach d env s' := by have := Reach.step depth code s h; rwa [ha] at this
  have hne := C27_no_empty_name d env hdef hn s' hr
  have hok := C27_reach d env hdef hc hn s' hr
  obtain ⟨s1, hcl⟩ := assemble_ends ha
  rcases hok.shape with h | ⟨b, m, sec, h1, h2, h3, a, h4, h5⟩
  · exact .inl h.1
  · right
    have hmne : m ≠ [] := by
      intro e; subst e
      apply hne; rw [h1]; simp
    obtain ⟨sec', hg, _, hsz⟩ := closeSection_closed hcl m h2 hmne
    have hnd := hok.nodup
    rw [h1] at hnd
    have hnb : m ∉ b.map Prod.fst := by
      simp [List.nodup_append] at hnd
      intro hm
      simp at hm
      obtain ⟨x, hx⟩ := hm
      exact hnd.2 _ _ hx rfl
    have he : sec = sec' := by
      rw [h1, dget_append, (dget_none_iff _ _).2 hnb] at hg
      simpa [dget] using hg
    subst he
    refine ⟨a, h4, ?_⟩
    rw [h1]
    simp only [List.map_append, List.map_cons, List.map_nil]
    rw [tiles_append]
    exact ⟨_, by omega, hsz, by omega, h5⟩

theorem rel_names (d : Dialect) : AsmRel d (fun s s' => s.sections.map Prod.fst <+: s'.sections.map Prod.fst ∧
    ((s.sections.map Prod.fst).Nodup → (s'.sections.map Prod.fst).Nodup)) where
  refl := fun _ => ⟨List.prefix_refl _, id⟩
  trans := fun h1 h2 => ⟨h1.1.trans h2.1, fun h => h2.2 (h1.2 h)⟩
  append := fun _ _ => ⟨List.prefix_refl _, id⟩
  reloc := fun _ _ => ⟨List.prefix_refl _, id⟩
  macros := fun _ _ => ⟨List.prefix_refl _, id⟩
  recording := fun _ _ => ⟨List.prefix_refl _, id⟩
  rep := fun _ _ => ⟨List.prefix_refl _, id⟩
  log := fun _ _ => ⟨List.prefix_refl _, id⟩
  defines := fun _ _ => ⟨List.prefix_refl _, id⟩
  exports := fun _ _ _ => ⟨List.prefix_refl _, id⟩
  pad := fun _ _ => ⟨List.prefix_refl _, id⟩
  org := fun _ _ _ _ _ _ => ⟨List.prefix_refl _, id⟩
  ram := fun _ _ _ => ⟨List.prefix_refl _, id⟩
  label := fun _ _ _ _ _ _ => ⟨List.prefix_refl _, id⟩
  closeSec := fun s n sec hcur hn hg => by
    have hmem : n ∈ dkeys s.sections := (dget_isSome_iff _ _).1 (by rw [hg]; rfl)
    have hk : dkeys (dset s.sections n { sec with stop := some s.pc, size := some ((s.bytes.length : Int) - sec.offset) }) = dkeys s.sections :=
      dkeys_dset_mem _ _ _ hmem
    show dkeys s.sections <+: dkeys _ ∧ ((dkeys s.sections).Nodup → (dkeys _).Nodup)
    rw [hk]; exact ⟨List.prefix_refl _, id⟩
  openSec := fun s n p hm _ _ => by
    have hm' := (dmem_false_iff _ _).1 hm
    refine ⟨?_, fun h => dkeys_nodup_dset _ _ _ h⟩
    simp only; rw [dset_new _ _ _ hm', List.map_append]; exact List.prefix_append _ _

/-- C27: section names are unique in any reachable state ... -/
theorem C27_unique (d : Dialect) (env : Env) (hc : CustomKeeps d env (fun s s' =>
      s.sections.map Prod.fst <+: s'.sections.map Prod.fst ∧
      ((s.sections.map Prod.fst).Nodup → (s'.sections.map Prod.fst).Nodup)))
    (s : St) (h : Reach d env s) : (s.sections.map Prod.fst).Nodup :=
  (reach_of_rel (rel_names d) hc h).2 (by simp [Dialect.init])

/-- ... and the list of names only grows at the end. -/
theorem C27_order (d : Dialect) (env : Env) (hc : CustomKeeps d env (fun s s' =>
      s.sections.map Prod.fst <+: s'.sections.map Prod.fst ∧
      ((s.sections.map Prod.fst).Nodup → (s'.sections.map Prod.fst).Nodup)))
    (depth : Nat) (code : Str) (s : St) :
    s.sections.map Prod.fst <+: (assemble d env depth code s).2.sections.map Prod.fst :=
  (keeps_assemble (rel_names d) env hc depth code s).1

/-- C27: a successful `.section` opens a section that starts at the size and pc of the output. -/
theorem C27_open (d : Dialect) (t nameTok perms : Str) (org : List Str) (s s' : St)
    (h : directiveSection d (t :: nameTok :: perms :: org) s = (.ok (), s')) :
    ∃ name, s'.curSection = some name ∧ name ∉ s.sections.map Prod.fst ∧
      s'.sections.map Prod.fst = s.sections.map Prod.fst ++ [name] ∧
      s'.sections.lookup name = some { start := s'.pc, offset := s'.bytes.length, permissions := perms } := by
  have main : ∀ o, sectionBody d nameTok perms o s = (.ok (), s') → ∃ name, s'.curSection = some name ∧
      name ∉ s.sections.map Prod.fst ∧ s'.sections.map Prod.fst = s.sections.map Prod.fst ++ [name] ∧
      s'.sections.lookup name = some { start := s'.pc, offset := s'.bytes.length, permissions := perms } := by
    intro o h
    unfold sectionBody at h
    rw [bind_eq] at h
    have hst := stringify_state nameTok s
    rcases h1 : stringify nameTok s with ⟨r, s1⟩
    rw [h1] at h hst
    simp only at hst; subst hst
    cases r with
    | error e => simp at h
    | ok name =>
      simp only [bind_eq, get_eq] at h
      split at h
      · simp [throw_eq] at h
      · rename_i hm
        have hm' : name ∉ dkeys s1.sections := (dmem_false_iff _ _).1 (by simpa using hm)
        split at h
        · simp [throw_eq] at h
        · have fin : ∀ s2 : St, dkeys s2.sections = dkeys s1.sections →
              (closeSection >>= fun _ => modify fun s =>
                let sec : Section := { start := s.pc, offset := s.bytes.length, permissions := perms }
                { s with curSection := some name, sections := dset s.sections name sec }) s2 = (.ok (), s') →
              ∃ name, s'.curSection = some name ∧
                name ∉ s1.sections.map Prod.fst ∧ s'.sections.map Prod.fst = s1.sections.map Prod.fst ++ [name] ∧
                s'.sections.lookup name = some { start := s'.pc, offset := s'.bytes.length, permissions := perms } := by
            intro s2 hk h
            rw [bind_eq] at h
            have hk2 := closeSection_keys s2
            rcases h2 : closeSection s2 with ⟨r, s3⟩
            rw [h2] at h hk2
            cases r with
            | error e => simp at h
            | ok _ =>
              simp only [modify_eq, Prod.mk.injEq, true_and] at h hk2
              subst h
              refine ⟨name, rfl, hm', ?_, ?_⟩
              · show dkeys (dset _ _ _) = dkeys _ ++ _
                rw [dset_new _ _ _ (by rw [hk2, hk]; exact hm')]
                simp only [dkeys, List.map_append] at hk hk2 ⊢
                rw [hk2, hk]; rfl
              · show List.lookup name (dset _ _ _) = _
                rw [← dget_eq_lookup, dget_dset_self]
                rfl
          cases o with
          | none => exact fin s1 rfl h
          | some tok =>
            simp only [bind_eq] at h
            have hp := parseArg_state d tok 64 s1
            rcases h2 : parseArg d tok 64 s1 with ⟨r, s2⟩
            rw [h2] at h hp
            simp only at hp; subst hp
            cases r with
            | error e => simp at h
            | ok start =>
              simp only at h
              have hs := changeOrg_sections (d := d) start 0 s2
              rcases h3 : changeOrg d start 0 s2 with ⟨r, s3⟩
              rw [h3] at h hs
              cases r with
              | error e => simp at h
              | ok _ =>
                simp only at h hs
                exact fin s3 (by rw [hs]) h
  unfold directiveSection at h
  cases org with
  | nil => exact main none h
  | cons o r =>
    cases r with
    | nil => exact main (some o) h
    | cons _ _ => simp [throw_eq] at h

/-- C27: without an origin the previous output is untouched by `.section`. -/
theorem C27_open_quiet (d : Dialect) (t nameTok perms : Str) (s s' : St)
    (h : directiveSection d [t, nameTok, perms] s = (.ok (), s')) : s'.bytes = s.bytes ∧ s'.pc = s.pc := by
  unfold directiveSection sectionBody at h
  simp only at h
  rw [bind_eq] at h
  have hst := stringify_state nameTok s
  rcases h1 : stringify nameTok s with ⟨r, s1⟩
  rw [h1] at h hst
  simp only at hst; subst hst
  cases r with
  | error e => simp at h
  | ok name =>
    simp only [bind_eq, get_eq] at h
    split at h
    · simp [throw_eq] at h
    · split at h
      · simp [throw_eq] at h
      · rw [bind_eq] at h
        have hcb : (closeSection s1).2.bytes = s1.bytes ∧ (closeSection s1).2.pc = s1.pc := by
          unfold closeSection
          repeat' split
          all_goals exact ⟨rfl, rfl⟩
        rcases h2 : closeSection s1 with ⟨r, s3⟩
        rw [h2] at h hcb
        cases r with
        | error e => simp at h
        | ok _ =>
          simp only [modify_eq, Prod.mk.injEq, true_and] at h
          subst h
          exact hcb

example : (assemble mos6502 {} 5 ".section a R\nNOP\n.section 'b' RWX\nNOP\nNOP".toList {}).2.sections =
    [(['a'], { start := 0, offset := 0, permissions := ['R'], stop := some 1, size := some 1 }),
     (['b'], { start := 1, offset := 1, permissions := ['R', 'W', 'X'], stop := some 3, size := some 2 })] := by
  decide +kernel

/-! ## C28 -/

theorem rel_exports (d : Dialect) :
    AsmRel d (fun s s' => s.exports <+: s'.exports ∧ (s.exports.Nodup → s'.exports.Nodup)) where
  refl := fun s => ⟨List.prefix_refl _, id⟩
  trans := fun h1 h2 => ⟨h1.1.trans h2.1, fun h => h2.2 (h1.2 h)⟩
  append := fun s b => ⟨List.prefix_refl _, id⟩
  reloc := fun s r => ⟨List.prefix_refl _, id⟩
  macros := fun s m => ⟨List.prefix_refl _, id⟩
  recording := fun s m => ⟨List.prefix_refl _, id⟩
  rep := fun s m => ⟨List.prefix_refl _, id⟩
  log := fun s m => ⟨List.prefix_refl _, id⟩
  defines := fun s m => ⟨List.prefix_refl _, id⟩
  exports := fun s m hm => ⟨List.prefix_append _ _, fun h => by
    rw [List.nodup_append]
    exact ⟨h, by simp, fun a ha b hb => by simp at hb; subst hb; intro e; subst e; exact hm ha⟩⟩
  pad := fun s b => ⟨List.prefix_refl _, id⟩
  org := fun s a b ha _ _ => ⟨List.prefix_refl _, id⟩
  ram := fun s n hn => ⟨List.prefix_refl _, id⟩
  label := fun s k _ _ _ _ => ⟨List.prefix_refl _, id⟩
  closeSec := fun s n sec _ _ _ => ⟨List.prefix_refl _, id⟩
  openSec := fun s n p _ _ _ => ⟨List.prefix_refl _, id⟩

/-- C28: the export list only grows at the end. -/
theorem C28_append_only (d : Dialect) (env : Env)
    (hc : CustomKeeps d env (fun s s' => s.exports <+: s'.exports ∧ (s.exports.Nodup → s'.exports.Nodup)))
    (depth : Nat) (code : Str) (s : St) : s.exports <+: (assemble d env depth code s).2.exports :=
  (keeps_assemble (rel_exports d) env hc depth code s).1

/-- C28: the export list of a reachable state has no duplicates. -/
theorem C28_nodup (d : Dialect) (env : Env)
    (hc : CustomKeeps d env (fun s s' => s.exports <+: s'.exports ∧ (s.exports.Nodup → s'.exports.Nodup)))
    (s : St) (h : Reach d env s) : s.exports.Nodup :=
  (reach_of_rel (rel_exports d) hc h).2 (by simp [Dialect.init])

/-- C28: exporting a name (unquoted, non-empty) appends it, or rejects it when it is already
there and changes nothing. -/
theorem C28_export (t c : Str) (hne : ∃ x xs, c = x :: xs ∧ x ≠ '"' ∧ x ≠ '\'') (s : St) :
    directiveExport [t, c] s =
      if c ∈ s.exports then (.error .symbolAlreadyExported, s)
      else (.ok (), { s with exports := s.exports ++ [c] }) := by
  obtain ⟨x, xs, rfl, h1, h2⟩ := hne
  have hq : isQuote x = false := by simp [isQuote, h1, h2]
  unfold directiveExport
  simp only [bind_eq, exactlyTwo, pure_eq, stringify, firstChar, hq, Bool.false_eq_true, if_false, get_eq]
  split <;> rfl

/-- C28: the same for a quoted name. -/
theorem C28_export_quoted (t name : Str) (s : St) :
    directiveExport [t, '"' :: (name ++ ['"'])] s =
      if name ∈ s.exports then (.error .symbolAlreadyExported, s)
      else (.ok (), { s with exports := s.exports ++ [name] }) := by
  have hu : unquote ('"' :: (name ++ ['"'])) = name := by simp [unquote]
  have hq : isQuote '"' = true := by decide
  unfold directiveExport
  simp only [bind_eq, exactlyTwo, pure_eq, stringify, firstChar, hq, if_true, hu, get_eq]
  split <;> rfl

example : (directiveExport [".export".toList, "a".toList] { exports := ["a".toList] }).1 = .error .symbolAlreadyExported := by
  decide

end Necro
