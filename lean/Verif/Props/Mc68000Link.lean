import Verif.Lemmas.M68Link
/-!
# 68000: references in linked programs

C66 and C67.
-/

namespace Necro
open Spec

/-- What a token stands for in the program `s'`, seen from an instruction assembled in state `s`: a number, or the
address of a label, which must fit the field of `n` bits.  Places relative to the program counter count from the
address of the instruction plus 2. -/
def m68Linked (s s' : St) (use : M68Use) (n : Nat) (tok : Str) (x : Int) : Prop :=
  m68Number (ctxOf mc68000 s) use n tok x ∨ ((∀ y dec, ¬ TokenValue mc68000.sy s.labels tok y dec) ∧ ∃ l, s'.labels.lookup tok = some l ∧
    if use = .pc then x = l.org + l.base - (s.pc + 2) ∧ -(2 ^ (n - 1)) ≤ x ∧ x < 2 ^ (n - 1) else x = l.org + l.base ∧ 0 ≤ x ∧ x < 2 ^ n)

variable {s s1 s2 : St} {t : Str} {rest : List Str} {blob : Bytes} {rels : List Reloc}

theorem slot_label {o : Option M68Slot} {v : Int} {c : Ctx} {rs : List Reloc} (hs : ∀ p, o = some p → SlotOk p) (h : SlotRead o c v rs) :
    (rs = [] ∧ M68Shape.Gives (m68Number c) o v) ∨
    ∃ p, o = some p ∧ rs = [p.2.1] ∧ v = 0 ∧ ∀ y dec, ¬ TokenValue c.sy c.labels p.2.1.label y dec := by
  rcases h with ⟨h1, rfl⟩ | ⟨q, h1, h2⟩
  · exact .inl ⟨rfl, fun p hp => by rw [h1] at hp; cases hp⟩
  · rcases slot_value (hs q h1) h2 with ⟨rfl, hx⟩ | ⟨rfl, rfl, hx⟩
    · exact .inl ⟨rfl, fun p hp => by rw [h1] at hp; cases hp; exact hx⟩
    · exact .inr ⟨q, h1, rfl, rfl, hx⟩

/-- One number or label and its words. -/
theorem linked_part (hlink : LinksOwn mc68000 s1 s2 s.bytes.length blob.length rels) (hcode : window s1.bytes s.bytes.length blob.length = blob)
    {o : Option M68Slot} {v : Int} {rs : List Reloc} {off m : Nat} {w : Int → List Nat}
    (hread : (rs = [] ∧ M68Shape.Gives (m68Number (ctxOf mc68000 s)) o v) ∨
      ∃ p, o = some p ∧ rs = [p.2.1] ∧ v = 0 ∧ ∀ y dec, ¬ TokenValue mc68000.sy s.labels p.2.1.label y dec)
    (hfill : ∀ p, o = some p → p.2.1.offset = off ∧ Fillable p.2.1 w ∧ (p.1 = .pc → p.2.1.relative = s.pc + 2) ∧ (p.1 ≠ .pc → p.2.1.relative = 0))
    (hpc : 0 ≤ s.pc)
    (hm : m = 2 * (w 0).length) (hom : off + m ≤ blob.length) (hw : window blob off m = bytesOf (w v))
    (hout : ∀ x ∈ rels, x ∈ rs ∨ x.offset + x.size ≤ off ∨ off + m ≤ x.offset)
    (hrec : ∀ r ∈ rs, r.offset + r.size ≤ blob.length → 0 < r.size → Recorded s1 s.bytes.length blob r)
    (hplain : ∀ r ∈ rs, r.label ≠ [] ∧ ∀ ch ∈ r.label, formulaChar ch = false) :
    ∃ v', window s2.bytes (s.bytes.length + off) m = bytesOf (w v') ∧ M68Shape.Gives (m68Linked s s1) o v' := by
  rcases hread with ⟨rfl, hg⟩ | ⟨p, hp, rfl, rfl, hnum⟩
  · refine ⟨v, ?_, ?_⟩
    · rw [own_untouched rfl hlink hcode hom (fun r hr => (hout r hr).resolve_left (by simp)), hw]
    · intro p hp
      obtain ⟨x, hx, e⟩ := hg p hp
      exact ⟨x, .inl hx, e⟩
  · obtain ⟨f1, f2, f3, f4⟩ := hfill p hp
    obtain ⟨hne, hch⟩ := hplain _ (List.mem_singleton_self _)
    have hsz : p.2.1.size = m := by rw [hm]; exact f2.2.1
    have hR := hrec _ (List.mem_singleton_self _) (by omega) f2.2.2.1
    obtain ⟨l, g1, g2, g3, -, g5⟩ := own_filled rfl rfl hlink hR (by
      intro x hx
      rcases hout x hx with h | h
      · exact .inl (List.mem_singleton.1 h)
      · rw [f1, hsz]; exact .inr h) f2 (by rw [f1, hsz]; exact hw) hne hch
    rw [f1, hsz] at g5
    refine ⟨_, g5, ?_⟩
    intro q hq
    rw [hp] at hq
    cases hq
    refine ⟨_, .inr ⟨hnum, l, g1, ?_⟩, rfl⟩
    by_cases hu : p.1 = .pc
    · rw [if_pos hu]
      have e := f3 hu
      have := (refRange_rel (by rw [e]; omega)).1 g2
      rw [e] at this ⊢
      exact ⟨rfl, this⟩
    · rw [if_neg hu]
      have e := f4 hu
      unfold RefRange at g2
      rw [if_neg (by simp [e])] at g2
      have := g3 e
      rw [e] at g2 ⊢
      exact ⟨by omega, by omega, g2⟩

theorem window_mid (A B C : Bytes) : window (A ++ B ++ C) A.length B.length = B := by simp [window]

/-- The words of an instruction in the linked output, labels replaced by their values. -/
theorem m68_linked_words (hpc : 0 ≤ s.pc) (hprog : InProgram mc68000 s t rest s1) (hem : Emits mc68000 (ctxOf mc68000 s) t rest blob rels)
    (hlink : LinksOwn mc68000 s1 s2 s.bytes.length blob.length rels)
    (hplain : ∀ r ∈ rels, r.label ≠ [] ∧ ∀ ch ∈ r.label, formulaChar ch = false)
    {sh : M68Shape} {used : List Str} {a b : Int} {ra rb : List Reloc} (hl : M68Line (ctxOf mc68000 s) t rest blob rels sh used a b ra rb) :
    ∃ a' b', window s2.bytes s.bytes.length blob.length = bytesOf (sh.words a' b') ∧
      M68Shape.Gives (m68Linked s s1) (sh.slot1 s.pc) a' ∧ M68Shape.Gives (m68Linked s s1) (sh.slot2 s.pc) b' := by
  have hcode := hprog.code hem
  have r1 := slot_label (slot1_ok hpc) hl.first
  have r2 := slot_label (slot2_ok hpc) hl.second
  have f1 := fun p h => M68Shape.slot1_fill (pc := s.pc) (p := p) hl.valid h
  have f2 := fun p h => M68Shape.slot2_fill (pc := s.pc) (p := p) hl.valid h
  have hrels := hl.rels
  have hblob := hl.blob
  rw [M68Shape.words_parts, bytesOf_append, bytesOf_append] at hblob
  have lF := bytesOf_length sh.front
  have lM := bytesOf_length (sh.mid a)
  have lS := bytesOf_length (sh.seg2 b)
  rw [sh.mid_length a 0] at lM
  rw [sh.seg2_length b 0] at lS
  have hlen : blob.length = 2 * sh.front.length + 2 * (sh.mid 0).length + 2 * (sh.seg2 0).length := by
    rw [hblob, List.length_append, List.length_append, lF, lM, lS]
  -- where the references are
  have ha : ∀ r ∈ ra, r.offset = 2 * sh.front.length ∧ r.size = 2 * (sh.mid 0).length := by
    intro r hr
    rcases r1 with ⟨rfl, -⟩ | ⟨p, hp, rfl, -, -⟩
    · cases hr
    · cases List.mem_singleton.1 hr
      exact ⟨(f1 p hp).1, (f1 p hp).2.1.2.1⟩
  have hb : ∀ r ∈ rb, r.offset = 2 * (sh.front.length + (sh.mid 0).length) ∧ r.size = 2 * (sh.seg2 0).length := by
    intro r hr
    rcases r2 with ⟨rfl, -⟩ | ⟨p, hp, rfl, -, -⟩
    · cases hr
    · cases List.mem_singleton.1 hr
      exact ⟨(f2 p hp).1, (f2 p hp).2.1.2.1⟩
  have hpa : ∀ r ∈ ra, 0 < (sh.mid 0).length := by
    intro r hr
    rcases r1 with ⟨rfl, -⟩ | ⟨p, hp, rfl, -, -⟩
    · cases hr
    · have h1 := (f1 p hp).2.1.2.2.1
      have h2 := (f1 p hp).2.1.2.1
      omega
  have hnodup : (rels.map (·.offset)).Nodup := by
    rw [hrels, List.map_append, List.nodup_append]
    refine ⟨?_, ?_, ?_⟩
    · rcases r1 with ⟨rfl, -⟩ | ⟨p, hp, rfl, -, -⟩ <;> simp
    · rcases r2 with ⟨rfl, -⟩ | ⟨p, hp, rfl, -, -⟩ <;> simp
    · intro x hx y hy
      obtain ⟨r, hr, rfl⟩ := List.mem_map.1 hx
      obtain ⟨q, hq, rfl⟩ := List.mem_map.1 hy
      have := ha r hr; have := hb q hq; have := hpa r hr
      omega
  have hrec : ∀ r ∈ rels, r.offset + r.size ≤ blob.length → 0 < r.size → Recorded s1 s.bytes.length blob r :=
    fun r hr h1 h2 => hprog.recordedAll hem hnodup hr h1 h2
  obtain ⟨a', wa, ga⟩ := linked_part hlink hcode r1 f1 hpc rfl (by omega)
    (by
      have := window_mid (bytesOf sh.front) (bytesOf (sh.mid a)) (bytesOf (sh.seg2 b))
      rw [← hblob, lF, lM] at this
      exact this)
    (by
      intro x hx
      rw [hrels, List.mem_append] at hx
      rcases hx with hx | hx
      · exact .inl hx
      · have := hb x hx; omega)
    (fun r hr => hrec r (by rw [hrels]; simp [hr])) (fun r hr => hplain r (by rw [hrels]; simp [hr]))
  obtain ⟨b', wb, gb⟩ := linked_part hlink hcode r2 (fun p h => ⟨(f2 p h).1, (f2 p h).2.1, fun e => absurd e (f2 p h).2.2.1, fun _ => (f2 p h).2.2.2⟩) hpc rfl (by omega)
    (by
      have := window_mid (bytesOf sh.front ++ bytesOf (sh.mid a)) (bytesOf (sh.seg2 b)) []
      rw [List.append_nil, ← hblob, List.length_append, lF, lM, lS, ← Nat.mul_add] at this
      exact this)
    (by
      intro x hx
      rw [hrels, List.mem_append] at hx
      rcases hx with hx | hx
      · have := ha x hx; omega
      · exact .inl hx)
    (fun r hr => hrec r (by rw [hrels]; simp [hr])) (fun r hr => hplain r (by rw [hrels]; simp [hr]))
  have wf : window s2.bytes (s.bytes.length + 0) (2 * sh.front.length) = bytesOf sh.front := by
    rw [own_untouched rfl hlink hcode (by omega) (by
      intro r hr
      rw [hrels, List.mem_append] at hr
      rcases hr with hr | hr
      · have := ha r hr; omega
      · have := hb r hr; omega)]
    have := window_mid [] (bytesOf sh.front) (bytesOf (sh.mid a) ++ bytesOf (sh.seg2 b))
    rw [List.nil_append, ← List.append_assoc, ← hblob, lF] at this
    exact this
  refine ⟨a', b', ?_, ga, gb⟩
  rw [hlen, window_add, window_add, wa, Nat.add_zero] at *
  rw [wf, ← Nat.mul_add, wb, M68Shape.words_parts, bytesOf_append, bytesOf_append]

theorem m68Linked_low {u : Str} {x : Int} (h : m68Linked s s1 .data 16 u x) : -(2 ^ 15) ≤ x := by
  rcases h with h | ⟨-, l, -, h⟩
  · exact number_low h
  · have h : x = l.org + l.base ∧ 0 ≤ x ∧ x < 2 ^ 16 := h
    omega

/-- C66: in the linked program the code of a line is the instruction written, each label standing for its address or, relative
to the program counter, for its distance. -/
theorem C66_linked (hpc : 0 ≤ s.pc) (hprog : InProgram mc68000 s t rest s1) (hem : Emits mc68000 (ctxOf mc68000 s) t rest blob rels)
    (hlink : LinksOwn mc68000 s1 s2 s.bytes.length blob.length rels)
    (hplain : ∀ r ∈ rels, r.label ≠ [] ∧ ∀ ch ∈ r.label, formulaChar ch = false) (ho : ¬ M68Odd (m68Linked s s1) t rest) :
    ∃ used extra i, rest = used ++ extra ∧ (extra ≠ [] → M68Open i) ∧ M68Written (m68Linked s s1) t used i ∧
      disasm68 (window s2.bytes s.bytes.length blob.length) = some i := by
  rcases m68_cases hem with hc | ⟨sh, used, a, b, ra, rb, hl⟩
  · exact absurd (hc _) ho
  · obtain ⟨a', b', hw, ga, gb⟩ := m68_linked_words hpc hprog hem hlink hplain hl
    obtain ⟨extra, hrest, hopen⟩ := hl.rest
    subst hrest
    refine ⟨used, extra, sh.fill a' b', rfl, ?_, hl.text.written ga gb (not_odd_short (fun _ _ => m68Linked_low) hl.text ho), ?_⟩
    · intro he
      have := hopen he
      cases sh with
      | move | imm => trivial
      | jump j f => cases j <;> trivial
      | _ => cases this
    · rw [hw]
      exact M68Shape.disasm_words hl.valid (not_bad hl.text ho hopen ga) b'

/-! ## C67: branches -/

/-- The reference a branch leaves. -/
def m68BranchRef (n : Nat) (label : Str) (pc : Int) : Reloc :=
  { label := label, size := 2, bitsSize := n, bits := if n = 8 then some (7, 0) else none, alignment := 2,
    offset := if n = 8 then 0 else 2, relative := pc + 2 }

/-- The bytes of a branch. -/
def m68BranchLen (n : Nat) : Nat := if n = 8 then 2 else 4

/-- What a branch to a name assembles to. -/
theorem m68_branch {c : Ctx} {label : Str} {n : Nat} {f : Int → M68Instr} (hb : M68Branch t label rest n f) (hfree : M68Free label)
    (hpc : 0 ≤ c.pc) (hnum : parseInteger c.sy c.labels label n true = .ok none) :
    (n = 8 ∨ n = 16) ∧ ∃ sh : M68Shape, sh.slot1 c.pc = some (.pc, m68BranchRef n label c.pc, false) ∧
      M68Line c t rest (bytesOf (sh.words 0 0)) [m68BranchRef n label c.pc] sh rest 0 0 [m68BranchRef n label c.pc] [] ∧
      Emits mc68000 c t rest (bytesOf (sh.words 0 0)) [m68BranchRef n label c.pc] ∧
      (∀ a, sh.Bad a → n = 8 ∧ a % 256 = 0) ∧ (∀ a b, -(2 ^ (n - 1)) ≤ a → a < 2 ^ (n - 1) → sh.fill a b = f a) ∧
      (∀ a x b, a % 2 ^ n = x % 2 ^ n → sh.fill a b = sh.fill x b) ∧
      (bytesOf (sh.words 0 0)).length = m68BranchLen n := by
  have hne : (c.pc + 2 != 0) = true := by simp only [bne_iff_ne, ne_eq]; omega
  have hread : SlotRead (some (.pc, m68BranchRef n label c.pc, false)) c 0 [m68BranchRef n label c.pc] := by
    refine .inr ⟨_, rfl, parseIntegerOrLabel_label ?_⟩
    show parseInteger c.sy c.labels label n (false || (c.pc + 2 != 0)) = _
    rw [hne]; exact hnum
  have s8 : ∀ a : Int, -(2 ^ 7) ≤ a → a < 2 ^ 7 → toSigned 8 (a % 2 ^ 8).toNat = a := by
    intro a h1 h2; unfold toSigned; split <;> omega
  have s16 : ∀ a : Int, -(2 ^ 15) ≤ a → a < 2 ^ 15 → toSigned 16 (a % 2 ^ 16).toNat = a := by
    intro a h1 h2; unfold toSigned; split <;> omega
  have nor : SlotRead none c 0 [] := .inl ⟨rfl, rfl⟩
  have line : ∀ sh : M68Shape, sh.slot1 c.pc = some (.pc, m68BranchRef n label c.pc, false) → sh.slot2 c.pc = none → sh.Valid → sh.Text t rest →
      M68Line c t rest (bytesOf (sh.words 0 0)) [m68BranchRef n label c.pc] sh rest 0 0 [m68BranchRef n label c.pc] [] := by
    intro sh h1 h2 h3 h4
    exact ⟨⟨[], by simp, by simp⟩, rfl, rfl, by rw [h1]; exact hread, by rw [h2]; exact nor, h3, h4⟩
  cases hb with
  | @bccB k name hk2 hk hname =>
    have h16 : k < 16 := (List.getElem?_eq_some_iff.1 hk).1
    have hc : condName k = name := by have := condNames_get h16; rw [hk] at this; exact (Option.some.inj this).symm
    have ht : eqNoCase t ("B" ++ condName k ++ ".B").toList := by rw [hc]; exact hname
    refine ⟨.inl rfl, .bccB k label, rfl, line _ rfl rfl h16 (.bccB h16 ht hfree), ?_, fun a h => ⟨rfl, h⟩, ?_, fun a x b e => by simp only [M68Shape.fill]; rw [e], rfl⟩
    · exact line_bccB h16 ht hfree h16 (by simp only [M68Shape.NoName]; omega) hread nor
    · intro a b h1 h2
      simp only [M68Shape.fill]
      rw [s8 a h1 h2]
  | @bccW k name hk2 hk hname =>
    have h16 : k < 16 := (List.getElem?_eq_some_iff.1 hk).1
    have hc : condName k = name := by have := condNames_get h16; rw [hk] at this; exact (Option.some.inj this).symm
    have ht : M68Name t ("B" ++ condName k) .word := by rw [hc]; exact hname
    refine ⟨.inr rfl, .bccW k label, rfl, line _ rfl rfl h16 (.bccW h16 ht hfree), ?_, fun a h => absurd h id, ?_, fun a x b e => by simp only [M68Shape.fill]; rw [e], rfl⟩
    · exact line_bccW h16 ht hfree h16 (by simp only [M68Shape.NoName]; omega) hread nor
    · intro a b h1 h2
      simp only [M68Shape.fill]
      rw [s16 a h1 h2]
  | @dbcc k name m r hk hname hT hF hr =>
    have h16 : k < 16 := (List.getElem?_eq_some_iff.1 hk).1
    have hc : condName k = name := by have := condNames_get h16; rw [hk] at this; exact (Option.some.inj this).symm
    have ht : M68Name t ("DB" ++ condName k) .word := by rw [hc]; exact hname
    refine ⟨.inr rfl, .dbcc k m label, rfl, line _ rfl rfl ⟨h16, hr.1⟩ (.dbcc h16 (.inl ht) hr hfree), ?_, fun a h => absurd h id, ?_, fun a x b e => by simp only [M68Shape.fill]; rw [e], rfl⟩
    · exact line_dbcc h16 (.inl ht) hr hfree ⟨h16, hr.1⟩ (by simp only [M68Shape.NoName, not_or]; exact ⟨hT, hF⟩) hread nor
    · intro a b h1 h2
      simp only [M68Shape.fill]
      rw [s16 a h1 h2]
  | @dbra m r hname hr =>
    refine ⟨.inr rfl, .dbcc 1 m label, rfl, line _ rfl rfl ⟨by decide, hr.1⟩ (.dbcc (by decide) (.inr ⟨rfl, hname⟩) hr hfree), ?_, fun a h => absurd h id, ?_, fun a x b e => by simp only [M68Shape.fill]; rw [e], rfl⟩
    · refine line_dbcc (by decide) (.inr ⟨rfl, hname⟩) hr hfree ⟨by decide, hr.1⟩ ?_ hread nor
      show ¬ (_ ∨ _)
      rw [not_or]
      have : ∀ u ∈ ["DBRA.W".toList, "DBRA".toList], ∀ v ∈ ["DBT.W".toList, "DBF.W".toList], upper u ≠ upper v := by decide
      have hu : ∃ u ∈ ["DBRA.W".toList, "DBRA".toList], upper t = upper u := by
        rcases hname with h | ⟨-, h⟩
        · exact ⟨"DBRA.W".toList, List.mem_cons_self, h⟩
        · exact ⟨"DBRA".toList, List.mem_cons_of_mem _ List.mem_cons_self, h⟩
      obtain ⟨u, hu, e⟩ := hu
      exact ⟨fun h => this u hu _ (by simp) (e.symm.trans h), fun h => this u hu _ (by simp) (e.symm.trans h)⟩
    · intro a b h1 h2
      simp only [M68Shape.fill]
      rw [s16 a h1 h2]

theorem m68BranchRef_ne {n : Nat} {label : Str} {pc : Int} (h : 0 ≤ pc) : (m68BranchRef n label pc).relative ≠ 0 := by
  show pc + 2 ≠ 0
  omega

theorem branch_recorded {label : Str} {n : Nat} (h8 : n = 8 ∨ n = 16) (hprog : InProgram mc68000 s t rest s1)
    (hem : Emits mc68000 (ctxOf mc68000 s) t rest blob [m68BranchRef n label s.pc]) (hlen : blob.length = m68BranchLen n) :
    Recorded s1 s.bytes.length blob (m68BranchRef n label s.pc) :=
  hprog.recorded hem (by rw [hlen]; rcases h8 with rfl | rfl <;> simp [m68BranchRef, m68BranchLen]) (by simp [m68BranchRef])

/-- C67: in a linked program a branch to a label goes to it: its address plus 2 plus the distance in it is the address of the
label.  (The label is at an even address, and it is not the next instruction when the distance has 8 bits.) -/
theorem C67_reaches {label : Str} {n : Nat} {f : Int → M68Instr} (hb : M68Branch t label rest n f) (hfree : M68Free label) (hpc : 0 ≤ s.pc)
    (hne : label ≠ []) (hplain : ∀ ch ∈ label, formulaChar ch = false) (hnum : parseInteger mc68000.sy s.labels label n true = .ok none)
    (hprog : InProgram mc68000 s t rest s1) (hlink : LinksOwn mc68000 s1 s2 s.bytes.length (m68BranchLen n) [m68BranchRef n label s.pc]) :
    ∃ l d, s1.labels.lookup label = some l ∧ (l.org + l.base) % 2 = 0 ∧ s.pc + 2 + d = l.org + l.base ∧ -(2 ^ (n - 1)) ≤ d ∧ d < 2 ^ (n - 1) ∧
      (¬ (n = 8 ∧ d = 0) → disasm68 (window s2.bytes s.bytes.length (m68BranchLen n)) = some (f d)) := by
  obtain ⟨h8, sh, hs1, hl, hem, hbad, hfill, hcong, hlen⟩ := m68_branch (c := ctxOf mc68000 s) hb hfree hpc hnum
  rw [← hlen] at hlink ⊢
  have hR := branch_recorded h8 hprog hem hlen
  obtain ⟨a', b', hw, ga, -⟩ := m68_linked_words hpc hprog hem hlink (by intro r hr; cases List.mem_singleton.1 hr; exact ⟨hne, hplain⟩) hl
  obtain ⟨x, hx, e⟩ := ga _ hs1
  obtain ⟨l, g1, g2, -, g4⟩ := plain_linked rfl (own_alone hlink hR (by intro x hx; exact .inl (List.mem_singleton.1 hx))) hR hne hplain
  have g1 : s1.labels.lookup label = some l := g1
  have g2 : -(2 ^ (n - 1)) ≤ l.org + l.base - (s.pc + 2) ∧ l.org + l.base - (s.pc + 2) < 2 ^ (n - 1) := (refRange_rel (m68BranchRef_ne hpc)).1 g2
  have hxv : x = l.org + l.base - (s.pc + 2) := by
    rcases hx with ⟨dec, hx, -⟩ | ⟨-, l', hl', hx⟩
    · exact absurd hx (parseInteger_none hnum x dec)
    · have hx : x = l'.org + l'.base - (s.pc + 2) ∧ _ := hx
      rw [show (m68BranchRef n label (ctxOf mc68000 s).pc).label = label from rfl, g1] at hl'
      cases hl'
      exact hx.1
  refine ⟨l, l.org + l.base - (s.pc + 2), g1, g4, by omega, g2.1, g2.2, fun hn => ?_⟩
  have e : a' % 2 ^ n = x % 2 ^ n := e
  rw [hxv] at e
  rw [hw, M68Shape.disasm_words hl.valid (fun h => ?_) b', hcong _ _ _ e, hfill _ _ g2.1 g2.2]
  obtain ⟨rfl, h0⟩ := hbad _ h
  refine hn ⟨rfl, ?_⟩
  simp only [Nat.reduceSub] at g2
  omega

/-- C67: a branch whose label is too far away or at an odd address is not linked. -/
theorem C67_rejected {label : Str} {n : Nat} {f : Int → M68Instr} (hb : M68Branch t label rest n f) (hfree : M68Free label) (hpc : 0 ≤ s.pc)
    (hne : label ≠ []) (hplain : ∀ ch ∈ label, formulaChar ch = false) (hnum : parseInteger mc68000.sy s.labels label n true = .ok none)
    (hprog : InProgram mc68000 s t rest s1) (hord : ∀ e ∈ s1.relocs, Ordinary e.2) (l : LabelInfo) (hlk : s1.labels.lookup label = some l)
    (hfar : l.org + l.base - (s.pc + 2) < -(2 ^ (n - 1)) ∨ 2 ^ (n - 1) ≤ l.org + l.base - (s.pc + 2) ∨ (l.org + l.base) % 2 ≠ 0) :
    (link mc68000 .dummy s1).1 ≠ .ok () := by
  obtain ⟨h8, sh, -, -, hem, -, -, -, hlen⟩ := m68_branch (c := ctxOf mc68000 s) hb hfree hpc hnum
  have hR := branch_recorded h8 hprog hem hlen
  by_cases hodd : (l.org + l.base) % 2 = 0
  · refine plain_rejected rfl hord hR hne hplain hlk ?_
    refine fun hrg => absurd ((refRange_rel (m68BranchRef_ne hpc)).1 hrg) ?_
    show ¬ (-(2 ^ (n - 1)) ≤ l.org + l.base - (s.pc + 2) ∧ l.org + l.base - (s.pc + 2) < 2 ^ (n - 1))
    omega
  · intro hok
    rw [C38_success mc68000 rfl s1 hord] at hok
    refine hok _ (mem_of_dget ((dget_eq_lookup_nat _ _).trans hR.entry)) _ (.misaligned (addr := l.org + l.base) ?_ hodd)
    have := plain_value mc68000.sy s1.labels label hne hplain 0
    rw [hlk] at this
    show labelRelative mc68000.sy s1.labels label 0 = _
    simpa using this

/-- C67: one to an even address in range is linked, if nothing is wrong with the other references. -/
theorem C67_accepted {label : Str} {n : Nat} {f : Int → M68Instr} (hb : M68Branch t label rest n f) (hfree : M68Free label) (hpc : 0 ≤ s.pc)
    (hne : label ≠ []) (hplain : ∀ ch ∈ label, formulaChar ch = false) (hnum : parseInteger mc68000.sy s.labels label n true = .ok none)
    (hprog : InProgram mc68000 s t rest s1) (hord : ∀ e ∈ s1.relocs, Ordinary e.2) (l : LabelInfo) (hlk : s1.labels.lookup label = some l)
    (heven : (l.org + l.base) % 2 = 0) (hnear : -(2 ^ (n - 1)) ≤ l.org + l.base - (s.pc + 2) ∧ l.org + l.base - (s.pc + 2) < 2 ^ (n - 1))
    (hothers : ∀ e ∈ s1.relocs, e ≠ (s.bytes.length + (m68BranchRef n label s.pc).offset, m68BranchRef n label s.pc) →
      ∀ x, ¬ Fault (labelRelative mc68000.sy s1.labels) s1.bytes.length e x) :
    (link mc68000 .dummy s1).1 = .ok () := by
  obtain ⟨h8, sh, -, -, hem, -, -, -, hlen⟩ := m68_branch (c := ctxOf mc68000 s) hb hfree hpc hnum
  have hR := branch_recorded h8 hprog hem hlen
  rw [C38_success mc68000 rfl s1 hord]
  intro e he x
  by_cases hee : e = (s.bytes.length + (m68BranchRef n label s.pc).offset, m68BranchRef n label s.pc)
  · subst hee
    refine plain_fault hR hne hplain hlk heven (fun h => absurd h (m68BranchRef_ne hpc)) ?_ ?_ x
    · exact (refRange_rel (m68BranchRef_ne hpc)).2 hnear
    · intro hi lo hbits
      rcases h8 with rfl | rfl
      · cases hbits
        show 0 ≤ 7 ∧ -(2 ^ 7) ≤ l.org + l.base - (s.pc + 2) ∧ l.org + l.base - (s.pc + 2) < 2 ^ 8
        simp only [Nat.reduceSub] at hnear
        omega
      · cases hbits
  · exact hothers e he hee x

/-! ## examples -/

/-- Two bytes at 0x1000 are there; `loop` and `table` are known, `table` further on. -/
def exM68St : St := { bytes := [0x4E, 0x71], org := 0x1000, counter := 2, labels := [("loop".toList, ⟨0x1000, 0, none⟩), ("table".toList, ⟨0x1000, 0x1234, none⟩)] }

/-- `move.l #table, loop` -/
def exM68Rels : List Reloc :=
  [{ label := "table".toList, size := 4, bitsSize := 32, offset := 2 }, { label := "loop".toList, size := 4, bitsSize := 32, offset := 6 }]

def exM68Move : St := emitted exM68St [0x23, 0xFC, 0, 0, 0, 0, 0, 0, 0, 0] exM68Rels

theorem exM68_emits : Emits mc68000 (ctxOf mc68000 exM68St) "move.l".toList ["#table".toList, "loop".toList]
    [0x23, 0xFC, 0, 0, 0, 0, 0, 0, 0, 0] exM68Rels := .handler rfl (Prod.ext (by decide +kernel) rfl)

theorem exM68_refs : exM68Move.relocs = exM68Rels.map fun r => (2 + r.offset, r) := rfl

theorem exM68_ordinary : ∀ r ∈ exM68Rels, Ordinary r ∧ r.label ≠ [] ∧ ∀ ch ∈ r.label, formulaChar ch = false := by
  simp only [exM68Rels, List.mem_cons, List.not_mem_nil, or_false]
  rintro r (rfl | rfl)
  · exact ⟨⟨by decide, by decide, rfl⟩, by decide, by decide⟩
  · exact ⟨⟨by decide, by decide, rfl⟩, by decide, by decide⟩

theorem exM68_program : InProgram mc68000 exM68St "move.l".toList ["#table".toList, "loop".toList] exM68Move :=
  .last rfl (by decide +kernel) rfl exM68_emits

theorem exM68_links : LinksOwn mc68000 exM68Move (link mc68000 .dummy exM68Move).2 2 10 exM68Rels :=
  .only (pair_ok (by decide +kernel)) exM68_refs (fun r hr => (exM68_ordinary r hr).1) (by decide +kernel)

theorem exM68_not_odd : ¬ M68Odd (m68Linked exM68St exM68Move) "move.l".toList ["#table".toList, "loop".toList] :=
  not_odd_of_test (by decide +kernel)

example : ∃ used extra i, ["#table".toList, "loop".toList] = used ++ extra ∧ (extra ≠ [] → M68Open i) ∧
    M68Written (m68Linked exM68St exM68Move) "move.l".toList used i ∧ disasm68 (window (link mc68000 .dummy exM68Move).2.bytes 2 10) = some i :=
  have h := C66_linked (s := exM68St) (by decide) exM68_program exM68_emits exM68_links (fun r hr => (exM68_ordinary r hr).2) exM68_not_odd
  h

example : disasm68 (window (link mc68000 .dummy exM68Move).2.bytes 2 10) = some (.move .long (.imm 0x2234) (.absL 0x1000)) := by decide +kernel

/-- `bne.b loop` -/
def exM68B : St := emitted exM68St [0x66, 0] [m68BranchRef 8 "loop".toList 0x1002]

theorem exM68B_program : InProgram mc68000 exM68St "bne.b".toList ["loop".toList] exM68B :=
  .last rfl (by decide +kernel) rfl (.handler rfl (Prod.ext (by decide +kernel) rfl))

theorem exM68_branch : M68Branch "bne.b".toList "loop".toList ["loop".toList] 8 (.bcc 6 true) :=
  .bccB (c := "NE") (by decide) rfl (by unfold eqNoCase; decide +kernel)

example : ∃ l d, exM68B.labels.lookup "loop".toList = some l ∧ (l.org + l.base) % 2 = 0 ∧ 0x1002 + 2 + d = l.org + l.base ∧ -(2 ^ 7) ≤ d ∧ d < 2 ^ 7 ∧
    (¬ (8 = 8 ∧ d = 0) → disasm68 (window (link mc68000 .dummy exM68B).2.bytes 2 2) = some (.bcc 6 true d)) :=
  C67_reaches (s := exM68St) exM68_branch ((m68Free_iff _).1 (by decide +kernel)) (by decide) (by decide) (by decide) (by decide +kernel) exM68B_program
    (.only (pair_ok (by decide +kernel)) rfl (by intro r hr; cases List.mem_singleton.1 hr; exact ⟨by decide, by decide, rfl⟩) (by simp))

example : (link mc68000 .dummy exM68B).1 = .ok () :=
  C67_accepted (s := exM68St) exM68_branch ((m68Free_iff _).1 (by decide +kernel)) (by decide) (by decide) (by decide) (by decide +kernel) exM68B_program
    (by intro e he; cases List.mem_singleton.1 he; exact ⟨by decide, by decide, rfl⟩) _ rfl (by decide) (by decide)
    (by intro e he hne; cases List.mem_singleton.1 he; exact absurd rfl hne)

/-- `bne.b table` is too far. -/
example : (link mc68000 .dummy (emitted exM68St [0x66, 0] [m68BranchRef 8 "table".toList 0x1002])).1 ≠ .ok () :=
  C67_rejected (s := exM68St) (t := "bne.b".toList) (rest := ["table".toList]) (label := "table".toList) (f := .bcc 6 true)
    (.bccB (c := "NE") (by decide) rfl (by unfold eqNoCase; decide +kernel)) ((m68Free_iff _).1 (by decide +kernel)) (by decide) (by decide) (by decide) (by decide +kernel)
    (.last rfl (by decide +kernel) rfl (.handler rfl (Prod.ext (by decide +kernel) rfl)))
    (by intro e he; cases List.mem_singleton.1 he; exact ⟨by decide, by decide, rfl⟩) ⟨0x1000, 0x1234, none⟩ (by decide +kernel) (.inr (.inl (by decide)))

end Necro
