import Verif.Lemmas.M68Proper
import Verif.Lemmas.Line
/-!
# C65: 68000 instructions
-/

namespace Necro
open Spec

variable {c : Ctx} {t : Str} {rest : List Str} {blob : Bytes}

/-- Reading a slot without leaving a reference means that its number was given. -/
theorem slot_gives {s : Option M68Slot} {v : Int} {c : Ctx} (hs : ∀ p, s = some p → SlotOk p) (h : SlotRead s c v []) : M68Shape.Gives (m68Number c) s v := by
  intro p hp
  rcases h with ⟨h1, -⟩ | ⟨q, h1, h2⟩
  · rw [h1] at hp; cases hp
  · rw [h1] at hp; cases hp
    rcases slot_value (hs p h1) h2 with ⟨-, hx⟩ | ⟨h3, -, -⟩
    · exact hx
    · cases h3

theorem slot1_ok {sh : M68Shape} {pc : Int} (hpc : 0 ≤ pc) : ∀ p, sh.slot1 pc = some p → SlotOk p := by
  have hne : (pc + 2 != 0) = true := by simp only [bne_iff_ne, ne_eq]; omega
  intro p hp
  cases sh with
  | bccB k t => cases hp; exact ⟨by simp, by simp [hne]⟩
  | bccW k t => cases hp; exact ⟨by simp, by simp [hne]⟩
  | dbcc k n t => cases hp; exact ⟨by simp, by simp [hne]⟩
  | rts => cases hp
  | nop => cases hp
  | imm op sz t g => exact EaForm.slot_ok (f := .imm t) hpc hp
  | status op sz t => exact EaForm.slot_ok (f := .imm t) hpc hp
  | _ => exact EaForm.slot_ok hpc hp

theorem slot2_ok {sh : M68Shape} {pc : Int} (hpc : 0 ≤ pc) : ∀ p, sh.slot2 pc = some p → SlotOk p := by
  intro p hp
  cases sh with
  | move sz f g => exact EaForm.slot_ok hpc hp
  | imm op sz t g => exact EaForm.slot_ok hpc hp
  | _ => cases hp

theorem text_short {f : EaForm} {ts : List Str} {u : Str} (h : f.Text ts) (hf : f = .absW u) : ShortIn ts u := by
  cases h with
  | absW h h' => cases hf; exact ⟨_, h', .inr ⟨[], [], rfl⟩⟩
  | absW' h h' => cases hf; exact ⟨_, h', .inl (by simp)⟩
  | _ => cases hf

theorem ShortIn.append {ts : List Str} {u : Str} (h : ShortIn ts u) (pre post : List Str) : ShortIn (pre ++ ts ++ post) u := by
  obtain ⟨t, ht, h | ⟨a, b, rfl⟩⟩ := h
  · exact ⟨t, ht, .inl (by simp [h])⟩
  · exact ⟨t, ht, .inr ⟨pre ++ a, b ++ post, by simp⟩⟩

theorem M68Shape.Text.short {sh : M68Shape} {ts : List Str} {u : Str} (h : sh.Text t ts) (hs : sh.Shorts u) : ShortIn ts u := by
  cases h with
  | @move sz f g A B _ hf hg =>
    rcases hs with hs | hs
    · simpa using (text_short hf hs).append [] B
    · simpa using (text_short hg hs).append A []
  | @movea sz f n A r _ hf _ => simpa using (text_short hf hs).append [] [r]
  | @imm op sz v g B _ _ hg => simpa using (text_short hg hs).append [('#' :: v)] []
  | @lea f n A r _ hf _ => simpa using (text_short hf hs).append [] [r]
  | jump _ hf => exact text_short hf hs
  | _ => cases hs

theorem number_low {use : M68Use} {n : Nat} {u : Str} {x : Int} (h : m68Number c use n u x) : -(2 ^ (n - 1)) ≤ x := by
  obtain ⟨dec, -, h⟩ := h
  unfold M68Fits at h
  split at h
  · have : (0 : Int) < 2 ^ (n - 1) := Int.pow_pos (by decide)
    omega
  · exact h.1

theorem not_odd_short {value : M68Use → Nat → Str → Int → Prop} (hlow : ∀ u x, value .data 16 u x → -(2 ^ 15) ≤ x) {sh : M68Shape} {ts extra : List Str}
    (ht : sh.Text t ts) (hodd : ¬ M68Odd value t (ts ++ extra)) (u : Str) (x : Int)
    (hs : sh.Shorts u) (hx : value .data 16 u x) : -(2 ^ 15) ≤ x ∧ x < 2 ^ 15 := by
  refine ⟨hlow u x hx, ?_⟩
  apply Int.not_le.1
  intro hle
  exact hodd (.short (by simpa [ShortIn] using (ht.short hs).append [] extra) hx hle)

/-- Lines that would make the code of something else are among the odd ones. -/
theorem not_bad {value : M68Use → Nat → Str → Int → Prop} {sh : M68Shape} {ts extra : List Str} {pc a : Int} (ht : sh.Text t ts) (ho : ¬ M68Odd value t (ts ++ extra))
    (hopen : extra ≠ [] → sh.Open) (ha : M68Shape.Gives value (sh.slot1 pc) a) : ¬ sh.Bad a := by
  intro hb
  cases ht with
  | @move sz f g A B hname hf hg =>
    obtain ⟨rfl, hm⟩ := hb
    have hname : eqNoCase t "MOVE.B".toList := by
      rcases hname with h | ⟨h, -⟩
      · exact h
      · cases h
    cases hf <;> simp only [EaForm.mode, reduceCtorEq] at hm
    exact ho (.byteAddr hname (by simp; exact ⟨rfl, rfl⟩) (by assumption))
  | @bccB k v hk hname hf =>
    obtain ⟨x, hx, e⟩ := ha _ rfl
    have he : extra = [] := by
      cases extra with
      | nil => rfl
      | cons a b => exact absurd (hopen (by simp)) id
    subst he
    have hb : a % 256 = 0 := hb
    exact ho (.next (List.mem_of_getElem? (condNames_get hk)) hname rfl hx (e.symm.trans hb))
  | _ => exact hb

/-- C65: the code of a line without references is, for the processor, the instruction written. -/
theorem C65_decodes (hpc : 0 ≤ c.pc) (h : Emits mc68000 c t rest blob []) (ho : ¬ M68Odd (m68Number c) t rest) :
    ∃ used extra i, rest = used ++ extra ∧ (extra ≠ [] → M68Open i) ∧ M68Written (m68Number c) t used i ∧ disasm68 blob = some i := by
  rcases m68_cases h with hc | ⟨sh, used, a, b, ra, rb, hl⟩
  · exact absurd (hc _) ho
  · obtain ⟨extra, hrest, hopen⟩ := hl.rest
    obtain ⟨rfl, rfl⟩ : ra = [] ∧ rb = [] := by simpa using hl.rels.symm
    have ga := slot_gives (slot1_ok hpc) hl.first
    have gb := slot_gives (slot2_ok hpc) hl.second
    subst hrest
    refine ⟨used, extra, sh.fill a b, rfl, ?_, hl.text.written ga gb (not_odd_short (fun _ _ => number_low) hl.text ho), ?_⟩
    · intro he
      have := hopen he
      cases sh with
      | move | imm => trivial
      | jump j f => cases j <;> trivial
      | _ => cases this
    · rw [hl.blob]
      exact M68Shape.disasm_words hl.valid (not_bad hl.text ho hopen ga) b

/-- The mnemonic is one the assembler has: it knows neither `BRA` nor `BSR` (written `BT` and `BF` here), and fails on `DBT.W` and `DBF.W`. -/
def M68Has (t : Str) (i : M68Instr) : Prop :=
  (∀ k s d, i = .bcc k s d → 2 ≤ k) ∧ ¬ eqNoCase t "DBT.W".toList ∧ ¬ eqNoCase t "DBF.W".toList

/-- C65: every instruction of the processor is accepted however it is written, and assembles to its code. -/
theorem C65_complete (hsy : c.sy = mc68000.sy) (hpc : 0 ≤ c.pc) {i : M68Instr} (h : M68Written (m68Number c) t rest i) (hi : ∃ bs, disasm68 bs = some i)
    (ho : ¬ M68Odd (m68Number c) t rest) (hm : M68Has t i) : ∃ blob, Emits mc68000 c t rest blob [] ∧ disasm68 blob = some i := by
  obtain ⟨bs, hbs⟩ := hi
  have hp := disasm_proper hbs
  -- it is enough to find the shape and the numbers
  have key : ∀ (sh : M68Shape) (a b : Int), sh.Text t rest → sh.Valid → ¬ sh.NoName t → ¬ sh.Bad a → SlotRead (sh.slot1 c.pc) c a [] →
      SlotRead (sh.slot2 c.pc) c b [] → SlotSafe (sh.slot1 c.pc) → SlotSafe (sh.slot2 c.pc) → sh.fill a b = i →
      ∃ blob, Emits mc68000 c t rest blob [] ∧ disasm68 blob = some i := by
    intro sh a b h1 h2 h3 h4 h5 h6 h7 h8 h9
    exact ⟨_, line_of h1 h2 h3 h5 h6 h7 h8, by rw [M68Shape.disasm_words h2 h4 b, h9]⟩
  have hshort : ∀ v x, ShortIn rest v → m68Number c .data 16 v x → -(2 ^ 15) ≤ x ∧ x < 2 ^ 15 := by
    intro v x hs hx
    refine ⟨number_low hx, Int.not_le.1 fun hle => ho (.short hs hx hle)⟩
  have nos : SlotSafe (none : Option M68Slot) := by intro p hp; cases hp
  have nor : SlotRead none c 0 [] := .inl ⟨rfl, rfl⟩
  have hne : (c.pc + 2 != 0) = true := by simp only [bne_iff_ne, ne_eq]; omega
  have hbits : ∀ sz, m68Bytes sz * 8 = sz.bits := by intro sz; cases sz <;> rfl
  cases h with
  | @move sz src dst A B hname hs hd =>
    obtain ⟨p1, p2, p3, p4⟩ := hp
    obtain ⟨f, f1, -, -, f4, f5⟩ := ea_form hs p1 (fun v x h => hshort v x (by simpa using h.append [] B))
    obtain ⟨g, g1, g2, -, -, g5⟩ := ea_form hd p2 (fun v x h => hshort v x (by simpa using h.append A []))
    obtain ⟨s1, a, r1, e1⟩ := form_reads hsy hpc (f5 c.pc 0)
    obtain ⟨s2, b, r2, e2⟩ := form_reads hsy hpc (g5 c.pc (2 * (f.ext sz 0).length))
    refine key (.move sz f g) a b (.move hname f1 g1) ⟨f1.valid, g1.valid, g2 p3⟩ id ?_ r1 r2 s1 s2 (by simp only [M68Shape.fill]; rw [e1, e2])
    rintro ⟨hz, hm⟩
    obtain ⟨n, rfl⟩ := f4 hm
    exact p4 hz n rfl
  | @movea sz src n A r hname hs hr =>
    obtain ⟨p1, p2⟩ := hp
    obtain ⟨f, f1, -, -, -, f5⟩ := ea_form hs p1 (fun v x h => hshort v x (by simpa using h.append [] [r]))
    obtain ⟨s1, a, r1, e1⟩ := form_reads hsy hpc (f5 c.pc 0)
    exact key (.movea sz f n) a 0 (.movea hname f1 hr) ⟨f1.valid, hr.1, p2⟩ id id r1 nor s1 nos (by simp only [M68Shape.fill]; rw [e1])
  | @imm op sz v dst u x B hname hu hx hv hd =>
    obtain ⟨p1, p2⟩ := hp
    obtain ⟨g, g1, g2, -, -, g5⟩ := ea_form hd p1 (fun v x h => hshort v x (by simpa using h.append [('#' :: u)] []))
    obtain ⟨s2, b, r2, e2⟩ := form_reads hsy hpc (g5 c.pc (m68Bytes sz + m68Bytes sz % 2))
    obtain ⟨s1, a, r1, e1⟩ := slot_reads hsy (EaForm.slot_ok hpc (f := .imm u) (sz := sz) (off := 0) rfl) (x := x) (by
      simp only [hbits]; exact hx)
    simp only [hbits] at e1
    exact key (.imm op sz u g) a b (.imm hname hu g1) ⟨g1.valid, g2 p2⟩ id id r1 r2 s1 s2
      (by simp only [M68Shape.fill]; rw [e2, toNat_back e1 hv])
  | @ccr op v u r x hname hu hx hv hr =>
    obtain ⟨s1, a, r1, e1⟩ := slot_reads hsy (EaForm.slot_ok hpc (f := .imm u) (sz := .byte) (off := 0) rfl) (x := x) hx
    exact key (.status op .byte u) a 0 (.ccr hname hu hr) ⟨hp, by simp⟩ id id r1 nor s1 nos
      (congrArg (M68Instr.ccr op) (toNat_back (n := 8) e1 hv))
  | @sr op v u r x hname hu hx hv hr =>
    obtain ⟨s1, a, r1, e1⟩ := slot_reads hsy (EaForm.slot_ok hpc (f := .imm u) (sz := .word) (off := 0) rfl) (x := x) hx
    refine key (.status op .word u) a 0 (.sr hname hu hr) ⟨hp, by simp⟩ id id r1 nor s1 nos ?_
    exact congrArg (M68Instr.sr op) (toNat_back (n := 16) e1 hv)
  | @lea src n A r hname hs hr =>
    obtain ⟨p1, p2⟩ := hp
    obtain ⟨f, f1, -, f3, -, f5⟩ := ea_form hs p1 (fun v x h => hshort v x (by simpa using h.append [] [r]))
    obtain ⟨s1, a, r1, e1⟩ := form_reads hsy hpc (f5 c.pc 0)
    exact key (.lea f n) a 0 (.lea hname f1 hr) ⟨f1.valid, hr.1, f3 p2⟩ id id r1 nor s1 nos (by simp only [M68Shape.fill]; rw [e1])
  | @jmp dst A hname hs =>
    obtain ⟨p1, p2⟩ := hp
    obtain ⟨f, f1, -, f3, -, f5⟩ := ea_form hs p1 hshort
    obtain ⟨s1, a, r1, e1⟩ := form_reads hsy hpc (f5 c.pc 0)
    exact key (.jump true f) a 0 (.jump hname f1) ⟨f1.valid, f3 p2⟩ id id r1 nor s1 nos (by simp only [M68Shape.fill, if_true]; rw [e1])
  | @jsr dst A hname hs =>
    obtain ⟨p1, p2⟩ := hp
    obtain ⟨f, f1, -, f3, -, f5⟩ := ea_form hs p1 hshort
    obtain ⟨s1, a, r1, e1⟩ := form_reads hsy hpc (f5 c.pc 0)
    exact key (.jump false f) a 0 (.jump hname f1) ⟨f1.valid, f3 p2⟩ id id r1 nor s1 nos
      (by simp only [M68Shape.fill, Bool.false_eq_true, if_false]; rw [e1])
  | @bccB k d u x name hk hname hf hx hd =>
    have h16 : k < 16 := (List.getElem?_eq_some_iff.1 hk).1
    have hk2 := hm.1 _ _ _ rfl
    have hc : condName k = name := by have := condNames_get h16; rw [hk] at this; exact (Option.some.inj this).symm
    obtain ⟨s1, a, r1, e1⟩ := slot_reads hsy (slot1_ok hpc (sh := .bccB k u) _ rfl) (x := x) hx
    refine key (.bccB k u) a 0 (.bccB h16 (by rw [hc]; exact hname) hf) h16 (by simp only [M68Shape.NoName]; omega) ?_ r1 nor s1 nos
      (by simp only [M68Shape.fill]; rw [signed_back8 e1 hd ⟨hp.1, hp.2.1⟩])
    intro hb
    have hb : a % 256 = 0 := hb
    obtain ⟨q1, q2, q3⟩ := hp
    have e1 : a % 2 ^ 8 = x % 2 ^ 8 := e1
    omega
  | @bccW k d u x name hk hname hf hx hd =>
    have h16 : k < 16 := (List.getElem?_eq_some_iff.1 hk).1
    have hk2 := hm.1 _ _ _ rfl
    have hc : condName k = name := by have := condNames_get h16; rw [hk] at this; exact (Option.some.inj this).symm
    obtain ⟨s1, a, r1, e1⟩ := slot_reads hsy (slot1_ok hpc (sh := .bccW k u) _ rfl) (x := x) hx
    exact key (.bccW k u) a 0 (.bccW h16 (by rw [hc]; exact hname) hf) h16 (by simp only [M68Shape.NoName]; omega) id r1 nor s1 nos
      (by simp only [M68Shape.fill]; rw [signed_back16 e1 hd hp])
  | @dbcc k n d u r x name hk hname hr hf hx hd =>
    have h16 : k < 16 := (List.getElem?_eq_some_iff.1 hk).1
    have hc : condName k = name := by have := condNames_get h16; rw [hk] at this; exact (Option.some.inj this).symm
    obtain ⟨s1, a, r1, e1⟩ := slot_reads hsy (slot1_ok hpc (sh := .dbcc k n u) _ rfl) (x := x) hx
    exact key (.dbcc k n u) a 0 (.dbcc h16 (.inl (by rw [hc]; exact hname)) hr hf) ⟨h16, hr.1⟩ (by simp only [M68Shape.NoName, not_or]; exact hm.2) id r1 nor s1 nos
      (by simp only [M68Shape.fill]; rw [signed_back16 e1 hd hp])
  | @dbra n d u r x hname hr hf hx hd =>
    obtain ⟨s1, a, r1, e1⟩ := slot_reads hsy (slot1_ok hpc (sh := .dbcc 1 n u) _ rfl) (x := x) hx
    exact key (.dbcc 1 n u) a 0 (.dbcc (by decide) (.inr ⟨rfl, hname⟩) hr hf) ⟨by decide, hr.1⟩ (by simp only [M68Shape.NoName, not_or]; exact hm.2) id r1 nor s1 nos
      (by simp only [M68Shape.fill]; rw [signed_back16 e1 hd hp])
  | rts h => exact key .rts 0 0 (.rts h) trivial id id nor nor nos nos rfl
  | nop h => exact key .nop 0 0 (.nop h) trivial id id nor nor nos nos rfl

/-! ## examples -/

def exM68 : Ctx := ⟨0x1000, [], mc68000.sy, 0⟩

/-- A test for lines that are not odd. -/
def letterB (t : Str) (s : String) : Bool := s.toList.any fun c => upper t == upper [c]

def oddTails : List Str → Bool
  | [] => true
  | p :: l => oddTails l && match l with
    | _ :: q :: r => !(p == ['('] && (letterB q "PC" || (q == [')'] && match r with
      | t :: _ => letterB t ".WL"
      | [] => false)))
    | _ => true

def notOddTest (m : Str) (rest : List Str) : Bool :=
  oddTails rest && ([M68Op.ORI, .ANDI, .EORI].all fun op => ["", ".B", ".W", ".L"].all fun s => upper m != upper (op.name ++ s).toList) &&
  upper m != upper "MOVE.B".toList && (m68CondNames.all fun c => upper m != upper ("B" ++ c ++ ".B").toList) &&
  rest.all fun t => !endsWith (upper t) ".W".toList

theorem oddTails_append {a b : List Str} (h : oddTails (a ++ b) = true) : oddTails b = true := by
  induction a with
  | nil => exact h
  | cons x a ih =>
    simp only [List.cons_append, oddTails, Bool.and_eq_true] at h
    exact ih h.1

theorem letterB_of {t : Str} {s : String} (h : M68Letter t s) : letterB t s = true := by
  obtain ⟨c, hc, h⟩ := h
  exact List.any_eq_true.2 ⟨c, hc, beq_iff_eq.2 h⟩

theorem not_odd_of_test {value : M68Use → Nat → Str → Int → Prop} {m : Str} {rest : List Str} (h : notOddTest m rest = true) : ¬ M68Odd value m rest := by
  simp only [notOddTest, Bool.and_eq_true, bne_iff_ne, ne_eq, List.all_eq_true] at h
  obtain ⟨⟨⟨⟨h1, h2⟩, h3⟩, h4⟩, h5⟩ := h
  have hst : ∀ (op : M68Op) (s : String), op.status = true → s ∈ ["", ".B", ".W", ".L"] → ¬ eqNoCase m (op.name ++ s).toList := by
    intro op s ho hs
    exact h2 op (by cases op <;> simp [M68Op.status] at ho ⊢) s hs
  intro ho
  cases ho with
  | pc hr hl =>
    subst hr
    have := oddTails_append h1
    simp [oddTails, letterB_of hl] at this
  | suffix hr hl =>
    subst hr
    have := oddTails_append h1
    simp [oddTails, letterB_of hl] at this
  | @status i t op sz hn hs _ _ =>
    rcases hn with hn | ⟨-, hn⟩
    · exact hst op _ hs (by cases sz <;> simp [M68Size.suffix]) hn
    · exact hst op "" hs (by simp) (by simpa using hn)
  | @statusSize i t op hs hr hn =>
    rcases hn with ⟨-, hn | hn⟩ | ⟨-, hn | hn⟩
    · exact hst op _ hs (by simp) hn
    · exact hst op _ hs (by simp) hn
    · exact hst op _ hs (by simp) hn
    · exact hst op _ hs (by simp) hn
  | byteAddr hn _ _ => exact h3 hn
  | @short v x ht _ _ =>
    obtain ⟨t, ht, hin⟩ := ht
    have ht' : upper t = ".W".toList := ht
    rcases hin with hin | ⟨pre, post, rfl⟩
    · have := h5 _ hin
      have e : upper (v ++ t) = upper v ++ ".W".toList := by rw [← ht']; simp [upper]
      rw [e, (endsWith_iff _ _).2 (List.suffix_append _ _)] at this
      cases this
    · have := h5 t (by simp)
      rw [ht', (endsWith_iff _ _).2 (List.suffix_refl _)] at this
      cases this
  | @next t x c hc hn _ _ _ => exact h4 c hc hn

/-- `move.w #$1234, (-8, a1, d2.l)` -/
example : ∃ used extra i, ["#$1234", "(", "-8", "a1", "d2.l", ")"].map String.toList = used ++ extra ∧ (extra ≠ [] → M68Open i) ∧
    M68Written (m68Number exM68) "move.w".toList used i ∧ disasm68 [0x33, 0xBC, 0x12, 0x34, 0x28, 0xF8] = some i :=
  C65_decodes (c := exM68) (by decide) (.handler rfl (Prod.ext (by decide +kernel) rfl)) (not_odd_of_test (by decide +kernel))

/-- `dbne d3, -20` -/
example : ∃ blob, Emits mc68000 exM68 "dbne".toList ["d3".toList, "-20".toList] blob [] ∧ disasm68 blob = some (.dbcc 6 3 (-20)) :=
  C65_complete (c := exM68) rfl (by decide)
    (.dbcc (c := "NE") (x := -20) rfl (.inr ⟨rfl, by unfold eqNoCase; decide +kernel⟩) ⟨by decide, by unfold eqNoCase; decide +kernel⟩
      ((m68Free_iff _).1 (by decide +kernel)) ⟨true, ⟨-20, by decide +kernel, by decide +kernel⟩, by unfold M68Fits; decide⟩ rfl)
    ⟨[0x56, 0xCB, 0xFF, 0xEC], by decide +kernel⟩ (not_odd_of_test (by decide +kernel)) ⟨(fun _ _ _ h => nomatch h), by unfold eqNoCase; decide +kernel, by unfold eqNoCase; decide +kernel⟩

/-- Each of the odd lines: what the processor makes of the code. -/
theorem C65_odd :
    -- jmp (16, p)
    (lineBytes mc68000 exM68 "jmp".toList (["(", "16", "p", ")"].map String.toList)).bind disasm68 = some (.jmp (.pcDisp 16)) ∧
    -- jmp (4096) .
    (lineBytes mc68000 exM68 "jmp".toList (["(", "4096", ")", "."].map String.toList)).bind disasm68 = some (.jmp (.absW 4096)) ∧
    -- ori #1, c
    (lineBytes mc68000 exM68 "ori".toList (["#1", "c"].map String.toList)).bind disasm68 = some (.ccr .ORI 1) ∧
    -- ori.l #1, ccr
    (lineBytes mc68000 exM68 "ori.l".toList (["#1", "ccr"].map String.toList)).bind disasm68 = some (.ccr .ORI 1) ∧
    -- move.b a0, d1
    (lineBytes mc68000 exM68 "move.b".toList (["a0", "d1"].map String.toList)).map disasm68 = some none ∧
    -- jmp $8000.w
    (lineBytes mc68000 exM68 "jmp".toList (["$8000.w"].map String.toList)).bind disasm68 = some (.jmp (.absW 0xFFFF8000)) ∧
    -- beq.b 0
    (lineBytes mc68000 exM68 "beq.b".toList (["0"].map String.toList)).map disasm68 = some none ∧
    -- jmp (a0)+ 
    (lineBytes mc68000 exM68 "jmp".toList (["(", "a0", ")", "+"].map String.toList)).bind disasm68 = some (.jmp (.ind 0)) := by decide +kernel

/-- Instructions the assembler has a name for, or should have, and refuses. -/
theorem C65_refused : (∀ blob rels, ¬ Emits mc68000 exM68 "dbt.w".toList (["d0", "8"].map String.toList) blob rels) ∧
    (∀ blob rels, ¬ Emits mc68000 exM68 "dbf.w".toList (["d0", "8"].map String.toList) blob rels) ∧
    (mc68000.instrs "BRA".toList).isNone = true ∧ (mc68000.instrs "BSR".toList).isNone = true :=
  ⟨lineBytes_none (by decide +kernel), lineBytes_none (by decide +kernel), by decide +kernel, by decide +kernel⟩

end Necro
