import Verif.Spec.ObjectLine
import Verif.Props.FileLine
import Verif.Props.ElfLink
/-!
# C89: from the sources on disk to the object file on disk

A line of a program is in the section it was written for, also if the program refers to names it does not define.
-/

namespace Necro
open Spec
open M (throw get modify lift forEach times)

/-! ## What a section contains -/

/-- The program up to position `last` is in the section or, if it is closed, in its range. -/
def InSec (name : Str) (start last : Nat) (s : St) : Prop :=
  ∃ sec, dget s.sections name = some sec ∧ sec.offset = start ∧ last ≤ s.bytes.length ∧
    (s.curSection = some name ∨ ∃ z, sec.size = some z ∧ (last : Int) ≤ start + z)

theorem inSec_grow {name : Str} {start last : Nat} {s s' : St} (hs : s'.sections = s.sections) (hc : s'.curSection = s.curSection)
    (hb : s.bytes.length ≤ s'.bytes.length) (h : InSec name start last s) : InSec name start last s' := by
  obtain ⟨sec, h1, h2, h3, h4⟩ := h
  exact ⟨sec, by rw [hs]; exact h1, h2, by omega, by rw [hc]; exact h4⟩

theorem rel_inSec (d : Dialect) {name : Str} (hne : name ≠ []) (start last : Nat) :
    AsmRel d (fun s s' => InSec name start last s → InSec name start last s') where
  refl := fun _ h => h
  trans := fun h1 h2 h => h2 (h1 h)
  append := fun s b => inSec_grow rfl rfl (by simp)
  reloc := fun s r => inSec_grow rfl rfl (by simp [addReloc])
  macros := fun s m => inSec_grow rfl rfl (by simp)
  recording := fun s m => inSec_grow rfl rfl (by simp)
  rep := fun s m => inSec_grow rfl rfl (by simp)
  log := fun s m => inSec_grow rfl rfl (by simp)
  defines := fun s m => inSec_grow rfl rfl (by simp)
  exports := fun s m _ => inSec_grow rfl rfl (by simp)
  pad := fun s b => inSec_grow rfl rfl (by simp)
  org := fun s a b ha _ _ => inSec_grow rfl rfl (by simp)
  ram := fun s n hn => inSec_grow rfl rfl (by simp)
  label := fun s k _ _ _ _ => inSec_grow rfl rfl (by simp)
  closeSec := fun s n sec hcur hn hg h => by
    obtain ⟨sec', h1, h2, h3, h4⟩ := h
    by_cases he : n = name
    · subst he
      rw [h1] at hg
      cases hg
      exact ⟨_, dget_dset_self _ _ _, h2, h3, .inr ⟨_, rfl, by omega⟩⟩
    · exact ⟨sec', by simp only; rw [dget_dset_ne _ _ he]; exact h1, h2, h3, h4⟩
  openSec := fun s n p hm hp hclosed h => by
    obtain ⟨sec', h1, h2, h3, h4⟩ := h
    have he : n ≠ name := by
      rintro rfl
      rw [(dget_none_iff _ _).2 ((dmem_false_iff _ _).1 hm)] at h1
      cases h1
    refine ⟨sec', by simp only; rw [dget_dset_ne _ _ he]; exact h1, h2, h3, .inr ?_⟩
    rcases h4 with h4 | h4
    · obtain ⟨sec, hg, -, hz⟩ := hclosed name h4 hne
      rw [h1] at hg
      cases hg
      exact ⟨_, hz, by omega⟩
    · exact h4

theorem emitted_sections (s : St) (blob : Bytes) (rels : List Reloc) :
    (emitted s blob rels).sections = s.sections ∧ (emitted s blob rels).curSection = s.curSection := by
  have : ∀ (l : List Reloc) (s : St), (l.foldl addReloc s).sections = s.sections ∧ (l.foldl addReloc s).curSection = s.curSection := by
    intro l
    induction l with
    | nil => intro s; exact ⟨rfl, rfl⟩
    | cons r l ih => intro s; exact ih (addReloc s r)
  exact this rels s

/-! ## The assemblers with an object file -/

theorem object_processor {tool : Tool} (hw : WritesObject tool) : Processor tool.dialect := by
  cases tool <;> first | exact hw.elim | skip
  · exact .i8086
  · exact .ppc
  · exact .x86

theorem object_custom {tool : Tool} (hw : WritesObject tool) (env : Env) {R : St → St → Prop} (hd : DataRel R) (hb : ∀ s n, R s { s with bitsMode := n }) :
    CustomKeeps tool.dialect env R := by
  cases tool <;> first | exact hw.elim | exact noCustom (fun _ => rfl) _ | skip
  intro key f hf ts
  simp only [Tool.dialect, x86] at hf
  split at hf
  · cases hf
    unfold x86Bits
    split
    · refine .bind hd (.readOnly hd (parseIntegerM_state _ _ _ _)) fun v => ?_
      split
      · split
        · exact fun s => hb s _
        · exact .throw hd _
      · exact .throw hd _
    · exact .throw hd _
  · cases hf

theorem object_sections {tool : Tool} (hw : WritesObject tool) (env : Env) : CustomKeeps tool.dialect env SectionsRel :=
  object_custom hw env (rel_sections tool.dialect).toDataRel fun _ _ => sectionsRel_grow rfl rfl (Nat.le_refl _)

theorem object_names {tool : Tool} (hw : WritesObject tool) (env : Env) : CustomKeeps tool.dialect env NamesRel := by
  intro key f hf ts s h
  exact SameNames.ok (object_custom hw env rel_sameNames.toDataRel (fun _ _ => ⟨rfl, rfl⟩) key f hf ts s) h

theorem object_defines {tool : Tool} (hw : WritesObject tool) : ∀ p ∈ tool.dialect.defines, GoodTok p.2 := by
  cases tool <;> first | exact hw.elim | (intro p hp; cases hp)

/-- The sources of a program, with the last one apart. -/
theorem sources_last {d : Dialect} {env : Env} {n : Nat} {codes : List Str} {s' : St} (hne : codes ≠ []) (h : forEach codes (assemble d env n) d.init = (.ok (), s')) :
    ∃ code s0, Reach d env s0 ∧ assemble d env n code s0 = (.ok (), s') := by
  obtain ⟨l, code, rfl⟩ : ∃ l c, codes = l ++ [c] := ⟨_, _, (List.dropLast_concat_getLast hne).symm⟩
  rw [forEach_append] at h
  rcases h1 : forEach l (assemble d env n) d.init with ⟨r, s0⟩
  rw [h1] at h
  cases r with
  | error e => cases h
  | ok u =>
    simp only at h
    rw [forEach_cons] at h
    rcases h2 : assemble d env n code s0 with ⟨r, s1⟩
    rw [h2] at h
    cases r with
    | error e => cases h
    | ok u =>
      cases h
      refine ⟨code, s0, ?_, h2⟩
      have hall : ∀ (l : List Str) (a b : St), Reach d env a → forEach l (assemble d env n) a = (.ok (), b) → Reach d env b := by
        intro l
        induction l with
        | nil => intro a b ha h; cases h; exact ha
        | cons c l ih =>
          intro a b ha h
          rw [forEach_cons] at h
          rcases h3 : assemble d env n c a with ⟨r, x⟩
          rw [h3] at h
          cases r with
          | error e => cases h
          | ok u =>
            refine ih x b ?_ h
            have := Reach.step n c a ha
            rwa [h3] at this
      exact hall l _ _ Reach.init h1

variable {tool : Tool} {m : Machine} {disk disk' : Disk} {args codes : List Str} {out : Str} {s s' : St} {t : Str} {rest : List Str}

/-- What a program that writes an object file does when it succeeds. -/
theorem object_run (hw : WritesObject tool) (h : tool.run m args disk = (.ok (), disk')) (ho : outputFile tool args = some out) :
    ∃ c file, disk' out = some file ∧ elfBuild c tool.dialect (m.view disk) m.depth (sourceFiles tool args) = .ok file := by
  have own : ownMain tool = false := by cases tool <;> first | exact hw.elim | rfl
  unfold outputFile at ho
  unfold sourceFiles
  rw [own] at ho ⊢
  obtain ⟨l, rfl⟩ : ∃ l, args = l ++ [out] := List.getLast?_eq_some_iff.1 (by simpa using ho)
  have key : ∃ c, (tool, c) ∈ [(Tool.i386Elf, Necro.i386Elf), (.ppcElf, Necro.ppcElf), (.x86Elf, x86Elf64)] := by
    cases tool <;> first | exact hw.elim | skip
    · exact ⟨_, .head _⟩
    · exact ⟨_, .tail _ (.head _)⟩
    · exact ⟨_, .tail _ (.tail _ (.head _))⟩
  obtain ⟨c, hc⟩ := key
  obtain ⟨file, h1, h2⟩ := C86_object tool c hc m l out disk disk' h
  exact ⟨c, file, h2.1, by simpa using h1⟩

/-- The line is in the object file, in its section, with the bytes to which it is linked. -/
theorem object_line (hw : WritesObject tool) (hl : FileLine tool m disk args codes s t rest s') (h : tool.run m args disk = (.ok (), disk'))
    (ho : outputFile tool args = some out) {name : Str} (hcur : s.curSection = some name) (hnul : '\x00' ∉ name) :
    ∃ s2, link tool.dialect .elf s' = (.ok (), s2) ∧ ∀ blob rels, Emits tool.dialect (ctxOf tool.dialect s) t rest blob rels →
      InSectionOf disk' out s (window s2.bytes s.bytes.length blob.length) := by
  obtain ⟨c, file, hdisk, hb⟩ := object_run hw h ho
  obtain ⟨s1, hv⟩ := hl.visits
  have hrun : forEach codes (assemble tool.dialect (m.view disk) m.depth) tool.dialect.init = (.ok (), s') := hv.run
  have hne : codes ≠ [] := by
    intro h0
    generalize hp : Part.sources codes = p at hv
    generalize m.depth = n at hv
    cases hv <;> cases hp
    simp at h0
  obtain ⟨code, s0, hreach, hlast⟩ := sources_last hne hrun
  have hreach' : Reach tool.dialect (m.view disk) s' := by have := Reach.step m.depth code s0 hreach; rwa [hlast] at this
  unfold elfBuild at hb
  rw [bind_eq, read_sources hl.read, hrun] at hb
  simp only at hb
  rcases hk : link tool.dialect .elf s' with ⟨r, s2⟩
  rw [hk] at hb
  cases r with
  | error e => cases hb
  | ok u =>
    simp only at hb
    refine ⟨s2, rfl, fun blob rels hem => ?_⟩
    have hpost : tool.dialect.postLink = pure () := by cases tool <;> first | exact hw.elim | rfl
    obtain ⟨e, he, -, -, -, -, -, -, -, -, -, -, -, -, hnum, -⟩ := C43_header hb
    -- the section in state `s`
    have hempty := C27_no_empty_name _ _ (object_defines hw) (object_names hw _) s' hreach'
    obtain ⟨r1, r2, r3⟩ := hv.asmRel (rel_sections tool.dialect) (object_sections hw _)
    have hsok : SectionsOk s := r1.2 (fun hm => hempty (r3.1.subset (r2.1.subset hm))) ⟨by simp [Dialect.init], .inl ⟨rfl, rfl⟩⟩
    obtain ⟨sec, hsec, hoff⟩ : ∃ sec, dget s.sections name = some sec ∧ sec.offset ≤ s.bytes.length := by
      rcases hsok.shape with hs | ⟨b, n, sec, h1, h2, h3, -⟩
      · rw [hs.2] at hcur; cases hcur
      · rw [h2] at hcur
        cases hcur
        have hnd := hsok.nodup
        rw [h1] at hnd
        refine ⟨sec, ?_, h3⟩
        rw [h1, dget_append, (dget_none_iff _ _).2]
        · simp [dget]
        · simp [List.nodup_append] at hnd
          intro hm
          simp [dkeys] at hm
          obtain ⟨x, hx⟩ := hm
          exact hnd.2 _ _ hx rfl
    have hnn : name ≠ [] := by
      rintro rfl
      refine hempty (r3.1.subset (r2.1.subset ?_))
      exact (dget_isSome_iff _ _).1 (by rw [hsec]; rfl)
    -- ... and at the end
    obtain ⟨hpc, hprog, hord, hwork, hnodup, blob', rels', hem', hs1, -, -⟩ :=
      (sound_processor (object_processor hw)).visit hv hl.noText (Nat.zero_le _)
    obtain ⟨rfl, rfl⟩ := Emits.unique hem hem'
    have hin1 : InSec name sec.offset (s.bytes.length + blob.length) s1 :=
      ⟨sec, by rw [hs1, (emitted_sections s blob rels).1]; exact hsec, rfl, by rw [hs1]; simp [emitted], .inl (by rw [hs1, (emitted_sections s blob rels).2]; exact hcur)⟩
    have hin : InSec name sec.offset (s.bytes.length + blob.length) s' :=
      (hv.asmRel (rel_inSec tool.dialect hnn sec.offset (s.bytes.length + blob.length))
        (object_custom hw _ (rel_inSec tool.dialect hnn _ _).toDataRel fun _ _ => inSec_grow rfl rfl (Nat.le_refl _))).2.2 hin1
    obtain ⟨sec', g1, g2, g3, g4⟩ := hin
    obtain ⟨z, hz, hzl⟩ : ∃ z, sec'.size = some z ∧ ((s.bytes.length + blob.length : Nat) : Int) ≤ sec.offset + z := by
      rcases g4 with g4 | g4
      · obtain ⟨x, hx⟩ := assemble_ends hlast
        obtain ⟨sec'', k1, -, k3⟩ := closeSection_closed hx name g4 hnn
        rw [g1] at k1
        cases k1
        exact ⟨_, k3, by omega⟩
      · exact g4
    obtain ⟨i, hi, hget⟩ := List.mem_iff_getElem.1 (mem_of_dget g1)
    have hget' : s'.sections[i]? = some (name, sec') := by rw [List.getElem?_eq_getElem hi, hget]
    have hcont := (C43_program _ _ (object_defines hw) (object_sections hw _) (object_names hw _) hpost m.depth code s0 s' s2 hreach hlast
      hl.noText hk c file e hb he).1 i name sec' hget'
    have hsame : s2.sections = s'.sections := by
      have := (C36_windows _ .elf hpost s' hl.noText).2.2.2
      rw [hk] at this
      simp only at this
      rw [← this]
    have hsn := C43_section hb he i name sec' (by rw [hsame]; exact hget')
    have hwin : window (contents file (shdr file e (i + 1))) (s.bytes.length - sec.offset) blob.length = window s2.bytes s.bytes.length blob.length := by
      rw [hcont.1, hz, Option.getD_some, window_window (by omega)]
      congr 1
      omega
    refine ⟨file, name, sec, hdisk, hcur, by rw [← dget_eq_lookup]; exact hsec, hoff, e, i + 1, he, by omega, ?_, hsn.2.2.2.2.2.2.2.2 hnul, ?_⟩
    · rw [hnum, hsame]; omega
    · have hlen : (window s2.bytes s.bytes.length blob.length).length = blob.length := by
        have := (C36_windows _ .elf hpost s' hl.noText).1
        rw [hk] at this
        simp only at this
        simp only [window, List.length_take, List.length_drop]
        omega
      rw [hlen]
      exact hwin

/-! ## What the line is linked to -/

variable {d : Dialect} {env : Env} {depth : Nat} {s1 s2 : St} {blob : Bytes} {rels : List Reloc}

theorem lookup_filter_key {α : Type} {p : Nat × α → Bool} : ∀ {l : List (Nat × α)} {i : Nat}, (∀ e ∈ l, e.1 = i → p e = true) →
    (l.filter p).lookup i = l.lookup i
  | [], _, _ => rfl
  | (k, v) :: l, i, h => by
    have ih := lookup_filter_key (l := l) (i := i) fun e he => h e (List.mem_cons_of_mem _ he)
    by_cases hk : i = k
    · subst hk
      rw [List.filter_cons_of_pos (h _ (List.mem_cons_self ..) rfl)]
      simp
    · have hb : (i == k) = false := by simpa using hk
      rw [List.lookup_cons, hb]
      by_cases hp : p (k, v) = true
      · rw [List.filter_cons_of_pos hp, List.lookup_cons, hb]; exact ih
      · rw [List.filter_cons_of_neg hp]; exact ih

/-- Leaving out the references to names that are not defined, the program links by itself; a line all of whose labels are defined is not
concerned. -/
theorem object_linked (hp : Processor d) (hv : Visits d env s t rest s1 depth (.sources codes) d.init s') (hnt : ∀ e ∈ s'.relocs, e.2.hook = none)
    (hk : link d .elf s' = (.ok (), s2)) (hem : Emits d (ctxOf d s) t rest blob rels) (hdef : ∀ r ∈ rels, elsewhere d s'.labels r = false) :
    LinkedLine d s t rest { s' with relocs := known d s' } { s2 with relocs := known d s' } := by
  obtain ⟨hpc, hprog, hord, hwork, hnodup, blob', rels', hem', hs1, hown, hin⟩ := (sound_processor hp).visit hv hnt (Nat.zero_le _)
  obtain ⟨rfl, rfl⟩ := Emits.unique hem hem'
  have hpost : d.postLink = pure () := by cases hp <;> rfl
  have hsub : ∀ e ∈ known d s', e ∈ s'.relocs := fun e he => (List.mem_filter.1 he).1
  have hkeys : ((known d s').map Prod.fst).Nodup := ((List.filter_sublist ..).map Prod.fst).nodup hnodup
  refine ⟨hpc, ?_, blob, rels, hem, ⟨C82_elsewhere hpost s' s2 hord (fun e he _ => (hwork e he).blank) hk, fun e he => hord e (hsub e he), hkeys,
    fun f hf => hown f (hsub f hf)⟩, hin⟩
  obtain ⟨n, tokens, ln, hrec, hsu, hmac, hrun⟩ := hv.line_run
  have hkept := (hv.asmRel (rel_kept d s.bytes.length) ((sound_processor hp).kept env _ (Nat.zero_le _))).2.2
  refine .mk hrec hsu hmac hrun ⟨hkept.length, hkept.bytes, fun i h1 h2 => ?_, hkept.labels, fun _ => hkeys⟩
  rw [← hkept.refs i h1 h2]
  refine lookup_filter_key fun e he hei => ?_
  subst hei
  have : ∃ r ∈ rels, e = (s.bytes.length + r.offset, r) := by
    refine hown e he e.1 h1 ?_ ⟨Nat.le_refl _, by have := (hwork e he).size; omega⟩
    rw [hs1] at h2
    simpa [emitted] using h2
  obtain ⟨r, hr, rfl⟩ := this
  simp [hdef r hr]

theorem defined_known {r : Reloc} (hd : Defined s' r.label) (hne : r.label ≠ []) (hch : ∀ ch ∈ r.label, formulaChar ch = false) :
    elsewhere d s'.labels r = false := by
  obtain ⟨l, hl⟩ := hd
  cases he : elsewhere d s'.labels r with
  | false => rfl
  | true =>
    rw [elsewhere_iff, plain_value _ _ _ hne hch, hl] at he
    cases he

theorem undefined_elsewhere {r : Reloc} (hd : ¬ Defined s' r.label) (hne : r.label ≠ []) (hch : ∀ ch ∈ r.label, formulaChar ch = false) :
    elsewhere d s'.labels r = true := by
  rw [elsewhere_iff, plain_value _ _ _ hne hch]
  cases hl : s'.labels.lookup r.label with
  | none => rfl
  | some l => exact absurd ⟨l, hl⟩ hd

/-! ## The property -/

/-- C89: when a program that writes an object file succeeds, each of its instruction lines has its bytes in the file, in the section that
was open, at the distance from its start at which they were assembled.  The bytes that do not belong to a label the program defines are
those of the line: also the bytes for names that are defined elsewhere. -/
theorem C89_line (hw : WritesObject tool) (h : tool.run m args disk = (.ok (), disk')) (ho : outputFile tool args = some out)
    (hl : FileLine tool m disk args codes s t rest s') {name : Str} (hcur : s.curSection = some name) (hnul : '\x00' ∉ name) :
    ∃ blob rels code, Emits tool.dialect (ctxOf tool.dialect s) t rest blob rels ∧ code.length = blob.length ∧ InSectionOf disk' out s code ∧
      ∀ o n, o + n ≤ blob.length → (∀ r ∈ rels, r.offset + r.size ≤ o ∨ o + n ≤ r.offset ∨
          (r.label ≠ [] ∧ (∀ ch ∈ r.label, formulaChar ch = false) ∧ ¬ Defined s' r.label)) →
        window code o n = window blob o n := by
  obtain ⟨s2, hk, hin⟩ := object_line hw hl h ho hcur hnul
  obtain ⟨s1, hv⟩ := hl.visits
  obtain ⟨hpc, hprog, hord, hwork, hnodup, blob, rels, hem, hs1, hown, hfit⟩ :=
    (sound_processor (object_processor hw)).visit hv hl.noText (Nat.zero_le _)
  have hpost : tool.dialect.postLink = pure () := by cases tool <;> first | exact hw.elim | rfl
  have hcode := hprog.code hem
  have hlen : s2.bytes.length = s'.bytes.length := by
    have := (C36_windows _ .elf hpost s' hl.noText).1
    rw [hk] at this
    exact this
  have hfits : s.bytes.length + blob.length ≤ s'.bytes.length := by
    have := congrArg List.length hcode
    simp only [window, List.length_take, List.length_drop] at this
    by_cases h0 : blob.length = 0
    · have := (hv.asmRel (rel_kept tool.dialect 0) ((sound_processor (object_processor hw)).kept _ 0 (Nat.le_refl _))).2
      have h1 := this.1.length
      have h2 := this.2.length
      omega
    · omega
  refine ⟨blob, rels, window s2.bytes s.bytes.length blob.length, hem, by simp only [window, List.length_take, List.length_drop]; omega,
    hin blob rels hem, fun o n hon hr => ?_⟩
  apply List.ext_getElem?
  intro j
  conv => rhs; rw [← hcode]
  simp only [window, List.getElem?_take, List.getElem?_drop]
  split
  · rw [if_pos (by omega), if_pos (by omega)]
    refine C82_blank hpost s' s2 hord (fun e he _ => (hwork e he).blank) hk _ fun e he hel hc => ?_
    obtain ⟨r, hrm, rfl⟩ := hown e he _ (by omega) (by omega) hc
    obtain ⟨c1, c2⟩ := hc
    simp only at c1 c2 hel
    rcases hr r hrm with hr | hr | ⟨h1, h2, h3⟩
    · omega
    · omega
    · rw [undefined_elsewhere h3 h1 h2] at hel
      cases hel
  · rfl

/-- C89: for the 8086, a line all of whose labels are defined is in its section as it was written. -/
theorem C89_i8086 (h : Tool.i386Elf.run m args disk = (.ok (), disk')) (ho : args.getLast? = some out)
    (hl : FileLine .i386Elf m disk args codes s t rest s') {name : Str} (hcur : s.curSection = some name) (hnul : '\x00' ∉ name)
    (hem : Emits i8086 (ctxOf i8086 s) t rest blob rels)
    (hlab : ∀ r ∈ rels, r.label ≠ [] ∧ (∀ ch ∈ r.label, formulaChar ch = false) ∧ Defined s' r.label)
    (hinner : rels ≠ [] → ¬ I86Inner t rest) (hodd : ¬ I86Odd (i86Linked s s') t rest) :
    ∃ code used extra i, InSectionOf disk' out s code ∧ rest = used ++ extra ∧ (i.args = [] → extra = []) ∧ I86Written (i86Linked s s') t used i ∧
      disasm86 code = some i := by
  obtain ⟨s2, hk, hin⟩ := object_line (tool := .i386Elf) trivial hl h ho hcur hnul
  obtain ⟨s1, hv⟩ := hl.visits
  have hll := object_linked (d := i8086) .i8086 hv hl.noText hk hem fun r hr => defined_known (hlab r hr).2.2 (hlab r hr).1 (hlab r hr).2.1
  obtain ⟨used, extra, i, e1, e2, e3, e4⟩ := linked_i8086 hll hem (fun r hr => ⟨(hlab r hr).1, (hlab r hr).2.1⟩) hinner hodd
  exact ⟨_, used, extra, i, hin blob rels hem, e1, e2, e3, e4⟩

/-- C89: for the PowerPC. -/
theorem C89_ppc (h : Tool.ppcElf.run m args disk = (.ok (), disk')) (ho : args.getLast? = some out)
    (hl : FileLine .ppcElf m disk args codes s t rest s') {name : Str} (hcur : s.curSection = some name) (hnul : '\x00' ∉ name)
    (hem : Emits ppc (ctxOf ppc s) t rest blob rels) (hone : rels.length ≤ 1)
    (hlab : ∀ r ∈ rels, r.label ≠ [] ∧ (∀ ch ∈ r.label, formulaChar ch = false) ∧ Defined s' r.label) (hodd : ¬ PpcOdd t rest) :
    ∃ code i, InSectionOf disk' out s code ∧ decodePpcBytes code = some i ∧ PpcWritten (ppcLinked s s') t rest i := by
  obtain ⟨s2, hk, hin⟩ := object_line (tool := .ppcElf) trivial hl h ho hcur hnul
  obtain ⟨s1, hv⟩ := hl.visits
  have hll := object_linked (d := ppc) .ppc hv hl.noText hk hem fun r hr => defined_known (hlab r hr).2.2 (hlab r hr).1 (hlab r hr).2.1
  obtain ⟨i, e1, e2⟩ := linked_ppc hll hem hone (fun r hr => ⟨(hlab r hr).1, (hlab r hr).2.1⟩) hodd
  have h4 : blob.length = 4 := by
    obtain ⟨row, vals, f, op, hrun, -⟩ := ppc_line hem hodd
    obtain ⟨w, -, hb⟩ := hrun.word
    rw [hb, wordBytes_length]
  have := hin blob rels hem
  rw [h4] at this
  exact ⟨_, i, this, e1, e2⟩

/-- C89: for the x86, a jump or call to a label of the program, if it is in 16-bit mode or the label is behind it. -/
theorem C89_x86_jump {mode op : Nat} {names : List String} {label : Str} (h : Tool.x86Elf.run m args disk = (.ok (), disk')) (ho : args.getLast? = some out)
    (hl : FileLine .x86Elf m disk args codes s t [label] s') {name : Str} (hcur : s.curSection = some name) (hnul : '\x00' ∉ name)
    (hj : X86Jump s mode op names t label) {l : LabelInfo} (hlab : s'.labels.lookup label = some l)
    (hforward : mode = 16 ∨ s.pc + x86JumpLength mode op ≤ l.org + l.base) :
    ∃ code d, InSectionOf disk' out s code ∧ disasmX86 mode code = some ⟨names, [.rel d]⟩ ∧ s.pc + x86JumpLength mode op + d = l.org + l.base := by
  obtain ⟨s2, hk, hin⟩ := object_line (tool := .x86Elf) trivial hl h ho hcur hnul
  obtain ⟨s1, hv⟩ := hl.visits
  obtain ⟨n, hn, ht⟩ := hj.name
  have hem := jump_emits (c := ctxOf x86 s) hj.pc hj.inMode hj.modes hj.map hn ht hj.noreg hj.nonumber
  have hll := object_linked (d := x86) .x86 hv hl.noText hk hem fun r hr => by
    cases List.mem_singleton.1 hr
    exact defined_known ⟨l, hlab⟩ hj.nonempty hj.plain
  obtain ⟨d, e1, e2⟩ := linked_x86_jump hll hj hlab hforward
  have := hin _ _ hem
  rw [jumpBlob_length] at this
  exact ⟨_, d, this, e1, e2⟩

/-- C89: for the x86, the address of a label of the program. -/
theorem C89_x86_address {mode size op n : Nat} {names : List String} {t1 label : Str} (h : Tool.x86Elf.run m args disk = (.ok (), disk'))
    (ho : args.getLast? = some out) (hl : FileLine .x86Elf m disk args codes s t [t1, label] s') {name : Str} (hcur : s.curSection = some name)
    (hnul : '\x00' ∉ name) (hj : X86Data s mode size op n names t t1 label) {l : LabelInfo} (hlab : s'.labels.lookup label = some l) :
    ∃ (code : Bytes) (a : Nat), InSectionOf disk' out s code ∧ (a : Int) = l.org + l.base ∧
      disasmX86 mode code = some ⟨names, [.reg size n, .imm a]⟩ := by
  obtain ⟨s2, hk, hin⟩ := object_line (tool := .x86Elf) trivial hl h ho hcur hnul
  obtain ⟨s1, hv⟩ := hl.visits
  have hem := data_emits hj
  have hll := object_linked (d := x86) .x86 hv hl.noText hk hem fun r hr => by
    cases List.mem_singleton.1 hr
    exact defined_known ⟨l, hlab⟩ hj.nonempty hj.plain
  obtain ⟨l', a, e1, e2, e3⟩ := linked_x86_address hll hj
  have e1' : s'.labels.lookup label = some l' := e1
  rw [hlab] at e1'
  cases e1'
  have := hin _ _ hem
  rw [dataBlob_length hj.modes hj.sizes] at this
  exact ⟨_, a, this, e2, e3⟩

/-- C89: for the x86, a line without labels whose instruction is in the opcode map. -/
theorem C89_x86_plain {mode size op : Nat} {kinds : List X86Kind} {name : String} {names : List String} {os : List X86Opnd}
    (h : Tool.x86Elf.run m args disk = (.ok (), disk')) (ho : args.getLast? = some out) (hl : FileLine .x86Elf m disk args codes s t rest s') {sect : Str}
    (hcur : s.curSection = some sect) (hnul : '\x00' ∉ sect)
    (hmode : x86Mode (ctxOf x86 s) = mode) (hm : mode = 16 ∨ mode = 32 ∨ mode = 64)
    (hs : size = 16 ∨ size = 32) (hmap : x86Main mode size op = some (names, kinds)) (hn : name ∈ names) (hlost : name ∉ x86Lost)
    (ht : eqNoCase t name.toList) (hstack : ∀ n, kinds = [.zs n] → size = 16 ∨ mode = 64)
    (ha : X86TakesAll (m68Number (ctxOf x86 s)) mode size kinds os rest) :
    ∃ code, InSectionOf disk' out s code ∧ disasmX86 mode code = some ⟨names, os⟩ := by
  obtain ⟨s2, hk, hin⟩ := object_line (tool := .x86Elf) trivial hl h ho hcur hnul
  obtain ⟨s1, hv⟩ := hl.visits
  obtain ⟨hpc, -⟩ := (sound_processor .x86).visit hv hl.noText (Nat.zero_le _)
  obtain ⟨blob, hem, hdec⟩ := C78_code (c := ctxOf x86 s) rfl hpc hmode hm hs hmap hn hlost ht hstack ha
  have hll := object_linked (d := x86) .x86 hv hl.noText hk hem fun r hr => by cases hr
  refine ⟨_, hin blob [] hem, ?_⟩
  have := plain_line rfl hll hem
  rw [show window s2.bytes s.bytes.length blob.length = blob from this]
  exact hdec

/-! ## Examples -/

/-- A program with two sections and a call to something in another file. -/
def exObCall : String := ".section \"data\" RW\n.db 7\n.section \"text\" RX\nstart:\ncall printf\njnz start\n"
def exObPre : List Stmt := [exStmt .directive [".section", "\"data\"", "RW"] 1, exStmt .directive [".db", "7"] 2,
  exStmt .directive [".section", "\"text\"", "RX"] 3, exStmt .label ["start"] 4]
def exObPre2 : List Stmt := exObPre ++ [exStmt .instr ["call", "printf"] 5]
def exObJump : St := exFlFirst .i386Elf exObCall exObPre2
def exObLast : St := exFlLast .i386Elf exObCall

theorem exObCall_ends : (assemble (Tool.i386Elf).dialect ((exMachine).view (exDisk exObCall)) 3 exObCall.toList (Tool.i386Elf).dialect.init).1 = .ok () ∧
    (∀ e ∈ (exFlLast .i386Elf exObCall).relocs, e.2.hook = none) := by decide +kernel
theorem exObCall_run : (Tool.i386Elf.run exMachine exArgs (exDisk exObCall)).1 = .ok () := by decide +kernel

theorem exObCall_line : FileLine .i386Elf exMachine (exDisk exObCall) exArgs [exObCall.toList] (exFlFirst .i386Elf exObCall exObPre) "call".toList ["printf".toList] exObLast :=
  file_of exObPre ["call", "printf"] 5 [exStmt .instr ["jnz", "start"] 6] (by decide +kernel) (by decide +kernel) (by decide +kernel) (by decide +kernel)
    (by decide +kernel) (by decide +kernel) exObCall_ends.1 exObCall_ends.2

theorem exObJump_line : FileLine .i386Elf exMachine (exDisk exObCall) exArgs [exObCall.toList] exObJump "jnz".toList ["start".toList] exObLast :=
  file_of exObPre2 ["jnz", "start"] 6 [] (by decide +kernel) (by decide +kernel) (by decide +kernel) (by decide +kernel)
    (by decide +kernel) (by decide +kernel) exObCall_ends.1 exObCall_ends.2

theorem exObCall_emits : Emits i8086 (ctxOf i8086 (exFlFirst .i386Elf exObCall exObPre)) "call".toList ["printf".toList] [0xE8, 0, 0] [(farSlot 1 "printf".toList).2.1] :=
  .handler rfl (Prod.ext (by decide +kernel) rfl)
theorem exObJump_emits : Emits i8086 (ctxOf i8086 exObJump) "jnz".toList ["start".toList] [0x75, 0] [(nearSlot 4 "start".toList).2.1] :=
  .handler rfl (Prod.ext (by decide +kernel) rfl)

/-- The call to `printf` is in the object file with its field 0. -/
example : ∃ code, InSectionOf (Tool.i386Elf.run exMachine exArgs (exDisk exObCall)).2 "a.bin".toList (exFlFirst .i386Elf exObCall exObPre) code ∧ code = [0xE8, 0, 0] := by
  obtain ⟨blob, rels, code, hem, hlen, hin, hw⟩ := C89_line (tool := .i386Elf) (m := exMachine) (args := exArgs) (disk := exDisk exObCall) (out := "a.bin".toList) trivial
    (pair_ok exObCall_run) (by decide +kernel) exObCall_line (name := "text".toList) (by decide +kernel) (by decide)
  obtain ⟨rfl, rfl⟩ := Emits.unique exObCall_emits hem
  refine ⟨code, hin, ?_⟩
  have h := hw 0 3 (by decide) fun r hr => .inr (.inr (by
    cases List.mem_singleton.1 hr
    refine ⟨by decide, by decide, fun ⟨l, hl⟩ => ?_⟩
    have h0 : exObLast.labels.lookup "printf".toList = none := by decide +kernel
    rw [show (farSlot 1 "printf".toList).2.1.label = "printf".toList from rfl, h0] at hl
    cases hl))
  rw [show window code 0 3 = code by simp only [window, List.drop_zero]; exact List.take_of_length_le (by rw [hlen]; decide)] at h
  exact h

/-- It is at the start of the second section, and the jump at distance 3. -/
example : exObJump.curSection = some "text".toList ∧ exObJump.bytes.length = 4 ∧
    (exObJump.sections.lookup "text".toList).map (fun sec => (sec.offset, sec.start)) = some (1, 1) := by decide +kernel

/-- The jump back to `start`. -/
example : ∃ code used extra i, InSectionOf (Tool.i386Elf.run exMachine exArgs (exDisk exObCall)).2 "a.bin".toList exObJump code ∧
    ["start".toList] = used ++ extra ∧ (i.args = [] → extra = []) ∧ I86Written (i86Linked exObJump exObLast) "jnz".toList used i ∧ disasm86 code = some i := by
  have h := C89_i8086 (m := exMachine) (args := exArgs) (disk := exDisk exObCall) (out := "a.bin".toList) (pair_ok exObCall_run) (by decide +kernel)
    exObJump_line (name := "text".toList) (by decide +kernel) (by decide) exObJump_emits
    (by intro r hr; cases List.mem_singleton.1 hr; exact ⟨by decide, by decide, ⟨1, 0, some "text".toList⟩, by decide +kernel⟩)
    (fun _ => not_inner86 (by decide +kernel)) (not_odd86 (by decide +kernel))
  exact h

/-- The same for the PowerPC. -/
def exObPpc : String := ".section \"text\" RX\nstart:\nnop\nbl start\n"
def exObPpcPre : List Stmt := [exStmt .directive [".section", "\"text\"", "RX"] 1, exStmt .label ["start"] 2, exStmt .instr ["nop"] 3]
def exObPpcAt : St := exFlFirst .ppcElf exObPpc exObPpcPre

set_option maxRecDepth 20000 in
theorem exObPpc_emits : Emits ppc (ctxOf ppc exObPpcAt) "bl".toList ["start".toList] [0x48, 0, 0, 1] [(ppcSlot .pcrel 4 25 2 "start".toList).2.1] :=
  .handler rfl (Prod.ext (by decide +kernel) rfl)

theorem exObPpc_line : FileLine .ppcElf exMachine (exDisk exObPpc) exArgs [exObPpc.toList] exObPpcAt "bl".toList ["start".toList] (exFlLast .ppcElf exObPpc) :=
  file_of exObPpcPre ["bl", "start"] 4 [] (by decide +kernel) (by decide +kernel) (by decide +kernel) (by decide +kernel)
    (by decide +kernel) (by decide +kernel) (by decide +kernel) (by decide +kernel)

example : ∃ code i, InSectionOf (Tool.ppcElf.run exMachine exArgs (exDisk exObPpc)).2 "a.bin".toList exObPpcAt code ∧ decodePpcBytes code = some i ∧
    PpcWritten (ppcLinked exObPpcAt (exFlLast .ppcElf exObPpc)) "bl".toList ["start".toList] i := by
  have h := C89_ppc (m := exMachine) (args := exArgs) (disk := exDisk exObPpc) (out := "a.bin".toList) (pair_ok (by decide +kernel)) (by decide +kernel)
    exObPpc_line (name := "text".toList) (by decide +kernel) (by decide) exObPpc_emits (by decide)
    (by intro r hr; cases List.mem_singleton.1 hr; exact ⟨by decide, by decide, ⟨0, 0, some "text".toList⟩, by decide +kernel⟩) (not_ppcOdd (by decide +kernel))
  exact h

/-- Three lines of an x86 program, which is in 64-bit mode. -/
def exObX86 : String := ".section \"text\" RX\nmov ecx, -5\njmp done\nmov ecx, done\ndone:\n"
def exObX86Pre : List Stmt := [exStmt .directive [".section", "\"text\"", "RX"] 1]
def exObX86Pre2 : List Stmt := exObX86Pre ++ [exStmt .instr ["mov", "ecx", "-5"] 2]
def exObX86Pre3 : List Stmt := exObX86Pre2 ++ [exStmt .instr ["jmp", "done"] 3]
def exObX86At : St := exFlFirst .x86Elf exObX86 exObX86Pre
def exObX86At2 : St := exFlFirst .x86Elf exObX86 exObX86Pre2
def exObX86At3 : St := exFlFirst .x86Elf exObX86 exObX86Pre3

theorem exObX86_ends : (assemble (Tool.x86Elf).dialect ((exMachine).view (exDisk exObX86)) 3 exObX86.toList (Tool.x86Elf).dialect.init).1 = .ok () ∧
    (∀ e ∈ (exFlLast .x86Elf exObX86).relocs, e.2.hook = none) := by decide +kernel
theorem exObX86_run : (Tool.x86Elf.run exMachine exArgs (exDisk exObX86)).1 = .ok () := by decide +kernel

theorem exObX86_line : FileLine .x86Elf exMachine (exDisk exObX86) exArgs [exObX86.toList] exObX86At "mov".toList (["ecx", "-5"].map String.toList) (exFlLast .x86Elf exObX86) :=
  file_of exObX86Pre ["mov", "ecx", "-5"] 2 [exStmt .instr ["jmp", "done"] 3, exStmt .instr ["mov", "ecx", "done"] 4, exStmt .label ["done"] 5] (by decide +kernel) (by decide +kernel)
    (by decide +kernel) (by decide +kernel) (by decide +kernel) (by decide +kernel) exObX86_ends.1 exObX86_ends.2
theorem exObX86_line2 : FileLine .x86Elf exMachine (exDisk exObX86) exArgs [exObX86.toList] exObX86At2 "jmp".toList ["done".toList] (exFlLast .x86Elf exObX86) :=
  file_of exObX86Pre2 ["jmp", "done"] 3 [exStmt .instr ["mov", "ecx", "done"] 4, exStmt .label ["done"] 5] (by decide +kernel) (by decide +kernel)
    (by decide +kernel) (by decide +kernel) (by decide +kernel) (by decide +kernel) exObX86_ends.1 exObX86_ends.2
theorem exObX86_line3 : FileLine .x86Elf exMachine (exDisk exObX86) exArgs [exObX86.toList] exObX86At3 "mov".toList ["ecx".toList, "done".toList] (exFlLast .x86Elf exObX86) :=
  file_of exObX86Pre3 ["mov", "ecx", "done"] 4 [exStmt .label ["done"] 5] (by decide +kernel) (by decide +kernel)
    (by decide +kernel) (by decide +kernel) (by decide +kernel) (by decide +kernel) exObX86_ends.1 exObX86_ends.2

theorem exObX86_noreg : ∀ w ∈ x86Words, ¬ eqNoCase "done".toList w.toList := by
  have e1 : x86Words.all (fun w => !(decide (upper "done".toList = upper w.toList))) = true := by decide +kernel
  simp only [List.all_eq_true, Bool.not_eq_true', decide_eq_false_iff_not] at e1
  exact e1

theorem exObX86_jump : X86Jump exObX86At2 64 0xE9 ["JMP"] "jmp".toList "done".toList :=
  ⟨by decide +kernel, by decide +kernel, by decide, by decide +kernel, ⟨"JMP", by decide, rfl⟩, exObX86_noreg, by decide +kernel, by decide, by decide⟩
theorem exObX86_data : X86Data exObX86At3 64 32 0xB9 1 ["MOV"] "mov".toList "ecx".toList "done".toList :=
  ⟨by decide +kernel, by decide, .inr rfl, by decide +kernel, ⟨"MOV", by decide, by decide, rfl⟩, ⟨_, rfl, rfl⟩, exObX86_noreg, by decide +kernel, by decide, by decide⟩

theorem exObX86_done : (exFlLast .x86Elf exObX86).labels.lookup "done".toList = some ⟨15, 0, some "text".toList⟩ := by decide +kernel

example : ∃ code d, InSectionOf (Tool.x86Elf.run exMachine exArgs (exDisk exObX86)).2 "a.bin".toList exObX86At2 code ∧
    disasmX86 64 code = some ⟨["JMP"], [.rel d]⟩ ∧ exObX86At2.pc + 5 + d = 0 + 15 := by
  have h := C89_x86_jump (m := exMachine) (args := exArgs) (disk := exDisk exObX86) (out := "a.bin".toList) (pair_ok exObX86_run) (by decide +kernel)
    exObX86_line2 (name := "text".toList) (by decide +kernel) (by decide) exObX86_jump exObX86_done (.inr (by decide +kernel))
  exact h

example : ∃ (code : Bytes) (a : Nat), InSectionOf (Tool.x86Elf.run exMachine exArgs (exDisk exObX86)).2 "a.bin".toList exObX86At3 code ∧ (a : Int) = 0 + 15 ∧
    disasmX86 64 code = some ⟨["MOV"], [.reg 32 1, .imm a]⟩ := by
  have h := C89_x86_address (m := exMachine) (args := exArgs) (disk := exDisk exObX86) (out := "a.bin".toList) (pair_ok exObX86_run) (by decide +kernel)
    exObX86_line3 (name := "text".toList) (by decide +kernel) (by decide) exObX86_data exObX86_done
  exact h

example : ∃ code, InSectionOf (Tool.x86Elf.run exMachine exArgs (exDisk exObX86)).2 "a.bin".toList exObX86At code ∧
    disasmX86 64 code = some ⟨["MOV"], [.reg 32 1, .imm 0xFFFFFFFB]⟩ := by
  have h := C89_x86_plain (m := exMachine) (args := exArgs) (disk := exDisk exObX86) (out := "a.bin".toList) (pair_ok exObX86_run) (by decide +kernel)
    exObX86_line (sect := "text".toList) (by decide +kernel) (by decide) (mode := 64) (size := 32) (names := ["MOV"]) (op := 0xB9) (kinds := [.zv 1, .iv]) (name := "MOV")
    (os := [.reg 32 1, .imm 0xFFFFFFFB]) (by decide +kernel) (by decide) (by decide) (by decide +kernel) (by simp) (by decide) (by unfold eqNoCase; decide) (fun n hn => by simp at hn)
    (.cons (ts := ["ecx".toList]) (us := ["-5".toList]) (.reg (by simp) ⟨"ECX", by decide, by unfold eqNoCase; decide⟩)
      (.cons (ts := ["-5".toList]) (us := []) (.imm (x := -5) ⟨true, ⟨-5, by decide +kernel, by decide +kernel⟩, by unfold M68Fits; decide⟩ (by decide)) .nil))
  exact h

end Necro
