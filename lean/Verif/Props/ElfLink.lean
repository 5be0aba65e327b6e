import Verif.Props.Elf
import Verif.Lemmas.Replaced
import Verif.Props.Consoles
import Verif.Model.Cpu.Intel8086
/-!
# C82: linking object files
-/

namespace Necro
open Spec
open M (get lift forEach)

variable {d : Dialect}

/-! ## Programs that need nothing from outside -/

theorem target_same {ls : Labels} {r : Reloc} {p : Int × Int} (h : resolveTarget d .dummy ls r = .ok p) : resolveTarget d .elf ls r = .ok p := by
  unfold resolveTarget at h ⊢
  split at h
  · cases h
  · split at h
    · cases h
    · cases h
    · exact h

theorem resolveOne_same {e : Nat × Reloc} {s s' : St} (h : resolveOne d .dummy e s = (.ok (), s')) : resolveOne d .elf e s = (.ok (), s') := by
  unfold resolveOne at h ⊢
  rw [bind_eq, get_eq] at h ⊢
  simp only at h ⊢
  rw [bind_eq, lift_eq] at h ⊢
  cases hr : resolveTarget d .dummy s.labels e.2 with
  | error x => rw [hr] at h; cases h
  | ok p =>
    rw [hr] at h
    rw [target_same hr]
    exact h

theorem forEach_same {α : Type} {f g : α → M Unit} (hfg : ∀ e s s', f e s = (.ok (), s') → g e s = (.ok (), s')) :
    ∀ (l : List α) (s s' : St), forEach l f s = (.ok (), s') → forEach l g s = (.ok (), s')
  | [], _, _, h => h
  | e :: l, s, s', h => by
    have h' : (f e >>= fun _ => forEach l f) s = (.ok (), s') := h
    show (g e >>= fun _ => forEach l g) s = (.ok (), s')
    rw [bind_eq] at h' ⊢
    cases hx : f e s with
    | mk r s1 =>
    rw [hx] at h'
    cases r with
    | error x => cases h'
    | ok u =>
      rw [hfg e s s1 hx]
      exact forEach_same hfg l s1 s' h'

/-- C82: a program that links by itself is the same bytes in an object file. -/
theorem C82_same (s s' : St) (h : link d .dummy s = (.ok (), s')) : link d .elf s = (.ok (), s') := by
  have h : (resolveLabels d .dummy >>= fun _ => d.postLink) s = (.ok (), s') := h
  show (resolveLabels d .elf >>= fun _ => d.postLink) s = (.ok (), s')
  rw [bind_eq] at h ⊢
  cases hx : resolveLabels d .dummy s with
  | mk r s1 =>
  rw [hx] at h
  cases r with
  | error x => cases h
  | ok u =>
    have : resolveLabels d .elf s = (.ok (), s1) := by
      unfold resolveLabels at hx ⊢
      rw [bind_eq, get_eq] at hx ⊢
      exact forEach_same (fun e s s' => resolveOne_same) s.relocs s s1 hx
    rw [this]
    exact h

/-! ## References to what is defined elsewhere -/

/-- The reference is to a name the program does not define. -/
def elsewhere (d : Dialect) (ls : Labels) (r : Reloc) : Bool :=
  match labelRelative d.sy ls r.label 0 with
  | .ok none => true
  | _ => false

theorem elsewhere_iff {ls : Labels} {r : Reloc} : elsewhere d ls r = true ↔ labelRelative d.sy ls r.label 0 = .ok none := by
  unfold elsewhere
  split
  · next h => simp [h]
  · next h => simp; exact h

/-- The field of the reference can be 0, and is for the value 0. -/
structure Blank (r : Reloc) : Prop where
  zero : converted r 0 = 0
  field : ∀ hi lo, r.bits = some (hi, lo) → lo ≤ hi

theorem packBits_zero {hi lo : Nat} (h : lo ≤ hi) : packBits 0 [⟨hi, lo, 0⟩] = .ok 0 := by
  have hf : ∀ f ∈ [(⟨hi, lo, 0⟩ : BitField)], FieldOk f := by
    intro f hf
    cases List.mem_singleton.1 hf
    refine ⟨h, ?_, ?_⟩
    · have : (0 : Int) < 2 ^ (hi - lo) := Int.pow_pos (by decide)
      simp only; omega
    · exact Int.pow_pos (by decide)
  obtain ⟨r, hr⟩ := (C04_pack_bits_ok_iff 0 _).2 hf
  rw [hr]
  have hbit : ∀ i, bit r i = false := fun i => by
    cases hx : bit r i with
    | false => rfl
    | true =>
      rcases (C04_pack_bits_bit 0 r _ hr i).1 hx with h | ⟨f, hf, -, -, h⟩
      · simp [bit] at h
      · cases List.mem_singleton.1 hf
        simp [bit] at h
  exact congrArg _ (bit_ext fun i => by rw [hbit]; simp [bit])

theorem value_elsewhere {ls : Labels} {r : Reloc} (ho : Ordinary r) (hb : Blank r) (he : elsewhere d ls r = true) : linkValue d .elf ls r = .ok 0 := by
  have h0 := elsewhere_iff.1 he
  have h1 := relative_none d.sy ls r.label 0 r.relative h0
  have hrt : resolveTarget d .elf ls r = .ok (0, 0) := by
    unfold resolveTarget
    have e0 : labelAddress d.sy ls r.label = .ok none := h0
    rw [e0, h1]
    simp only [ite_self]
    rfl
  unfold linkValue
  rw [hrt]
  simp only
  rcases encodeTarget_cases r ho 0 0 (fun _ => rfl) with ⟨v, hv, -, -, -, -, hf⟩ | ⟨-, h⟩ | ⟨-, -, h⟩ | ⟨-, h⟩ | ⟨-, hi, lo, h, h'⟩
  · rw [hv]
    unfold encodeTarget at hv
    rw [if_neg ho.alignment] at hv
    split at hv
    · cases hv
    split at hv
    · cases hv
    split at hv
    · cases hv
    · have hz := hb.zero
      unfold converted at hz
      simp only at hv
      cases hbits : r.bits with
      | none =>
        rw [hbits] at hv
        simp only at hv
        cases hfl : r.filter with
        | none => rw [hfl] at hv; exact hv.symm
        | some f => rw [hfl] at hv hz; simp only at hv hz; rw [hz] at hv; exact hv.symm
      | some p =>
        rw [hbits] at hv
        simp only at hv
        cases hfl : r.filter with
        | none => rw [hfl] at hv; simp only at hv; rw [packBits_zero (hb.field _ _ hbits)] at hv; exact hv.symm
        | some f => rw [hfl] at hv hz; simp only at hv hz; rw [hz, packBits_zero (hb.field _ _ hbits)] at hv; exact hv.symm
  · exact absurd (Int.zero_emod _) h
  · exact absurd h (by decide)
  · refine absurd ?_ h
    unfold RefRange
    have : (0 : Int) < 2 ^ (r.bitsSize - 1) := Int.pow_pos (by decide)
    have : (0 : Int) < 2 ^ r.bitsSize := Int.pow_pos (by decide)
    split
    · omega
    · assumption
  · rw [hb.zero] at h'
    refine absurd ⟨hb.field _ _ h, ?_, ?_⟩ h'
    · have : (0 : Int) < 2 ^ (hi - lo) := Int.pow_pos (by decide)
      simp only; omega
    · exact Int.pow_pos (by decide)

theorem value_known {ls : Labels} {r : Reloc} (he : elsewhere d ls r = false) : linkValue d .elf ls r = linkValue d .dummy ls r := by
  have h0 : labelRelative d.sy ls r.label 0 ≠ .ok none := fun h => by rw [elsewhere_iff.2 h] at he; cases he
  have h1 : labelRelative d.sy ls r.label r.relative ≠ .ok none := fun h => h0 (relative_none _ _ _ _ _ h)
  unfold linkValue
  congr 1
  unfold resolveTarget
  split
  · rfl
  · next abs ha =>
    have ha : labelRelative d.sy ls r.label 0 = .ok abs := ha
    split
    · rfl
    · next hn =>
      split at hn
      · exact absurd hn h1
      · cases hn
        exact absurd ha h0
    · rfl

/-- The references to what the program defines. -/
def known (d : Dialect) (s : St) : List (Nat × Reloc) := s.relocs.filter fun e => !elsewhere d s.labels e.2

theorem contrib_zero (a size j : Nat) : contrib d a size 0 j = 0#8 := by
  unfold contrib
  split
  · have : ∀ n, pyShr 0 n = 0 := fun n => by simp [pyShr]
    unfold fieldByte
    rw [this]
    rfl
  · rfl

theorem mask_known {ls : Labels} : ∀ (l : List (Nat × Reloc)), (∀ e ∈ l, Ordinary e.2) → (∀ e ∈ l, elsewhere d ls e.2 = true → Blank e.2) →
    ∀ j, linkMask d .elf ls l j = linkMask d .dummy ls (l.filter fun e => !elsewhere d ls e.2) j
  | [], _, _, _ => rfl
  | e :: l, ho, hb, j => by
    have ih := mask_known l (fun x hx => ho x (List.mem_cons_of_mem _ hx)) (fun x hx => hb x (List.mem_cons_of_mem _ hx)) j
    cases he : elsewhere d ls e.2 with
    | true =>
      rw [List.filter_cons_of_neg (by rw [he]; simp), ← ih]
      have : storedValue d .elf ls e.2 = 0 := storedValue_eq (value_elsewhere (ho e (List.mem_cons_self ..)) (hb e (List.mem_cons_self ..) he) he)
      simp only [linkMask, List.map_cons, orAll, this, contrib_zero]
      simp
    | false =>
      rw [List.filter_cons_of_pos (by rw [he]; rfl)]
      have : storedValue d .elf ls e.2 = storedValue d .dummy ls e.2 := by unfold storedValue; rw [value_known he]
      unfold linkMask at ih ⊢
      simp only [List.map_cons, orAll, this, ih]

/-- C82: linking an object file does not fail because of names that are not defined; otherwise for the same reasons as without. -/
theorem C82_success (hp : d.postLink = pure ()) (s : St) (ho : ∀ e ∈ s.relocs, Ordinary e.2) (hb : ∀ e ∈ s.relocs, elsewhere d s.labels e.2 = true → Blank e.2) :
    (link d .elf s).1 = .ok () ↔
      ∀ e ∈ s.relocs, ∀ x, Fault (labelRelative d.sy s.labels) s.bytes.length e x → elsewhere d s.labels e.2 = true ∧ x = .unknownLabel e.2.label := by
  rw [link_resolve d .elf hp]
  unfold resolveLabels
  rw [bind_eq, get_eq]
  simp only
  rw [resolveAll_result d .elf s.relocs (fun e he => (ho e he).hook)]
  have key : ∀ e ∈ s.relocs, linkErr d .elf s.labels s.bytes.length e = none ↔
      ∀ x, Fault (labelRelative d.sy s.labels) s.bytes.length e x → elsewhere d s.labels e.2 = true ∧ x = .unknownLabel e.2.label := by
    intro e he
    cases hk : elsewhere d s.labels e.2 with
    | false =>
      have hsame : linkErr d .elf s.labels s.bytes.length e = linkErr d .dummy s.labels s.bytes.length e := by unfold linkErr; rw [value_known hk]
      rw [hsame]
      obtain ⟨h1, h2⟩ := linkErr_fault d s.labels s.bytes.length e (ho e he)
      constructor
      · intro h x hx
        exact absurd hx (h2 h x)
      · intro h
        cases hx : linkErr d .dummy s.labels s.bytes.length e with
        | none => rfl
        | some x => exact absurd (h x (h1 x hx)).1 (by decide)
    | true =>
      have h0 := elsewhere_iff.1 hk
      have h1 := relative_none d.sy s.labels e.2.label 0 e.2.relative h0
      unfold linkErr
      rw [value_elsewhere (ho e he) (hb e he hk) hk]
      simp only
      constructor
      · intro hlen x hx
        refine ⟨trivial, ?_⟩
        obtain ⟨a, r⟩ := e
        simp only at h0 h1 hlen
        cases hx with
        | expr h => rw [h0, h1] at h; simp at h
        | unknown h => rfl
        | misaligned h h' => rw [h0] at h; cases h
        | negative h hr h' => rw [h0] at h; cases h
        | tooWide h h' => rw [h1] at h; cases h
        | noField h hb h' => rw [h1] at h; cases h
        | outside h h' => rw [if_neg (by omega)] at hlen; cases hlen
      · intro h
        split
        · rfl
        · next hn =>
          obtain ⟨a, r⟩ := e
          simp only at hn
          cases (h _ (.outside (by omega) (by omega))).2
  constructor
  · intro h e he
    refine (key e he).1 ?_
    cases hf : s.relocs.findSome? (linkErr d .elf s.labels s.bytes.length) with
    | some x => rw [hf] at h; cases h
    | none => exact findSome?_none.1 hf e he
  · intro h
    have : s.relocs.findSome? (linkErr d .elf s.labels s.bytes.length) = none := findSome?_none.2 fun e he => (key e he).2 (h e he)
    rw [this]

/-- C82: in an object file the references to names the program does not define are left blank, and everything else is as if they were not there: the
result is that of linking, by itself, the program without these references. -/
theorem C82_elsewhere (hp : d.postLink = pure ()) (s s' : St) (ho : ∀ e ∈ s.relocs, Ordinary e.2)
    (hb : ∀ e ∈ s.relocs, elsewhere d s.labels e.2 = true → Blank e.2) (h : link d .elf s = (.ok (), s')) :
    link d .dummy { s with relocs := known d s } = (.ok (), { s' with relocs := known d s }) := by
  have hk : ∀ e ∈ known d s, e ∈ s.relocs ∧ elsewhere d s.labels e.2 = false := fun e he => by
    obtain ⟨h1, h2⟩ := List.mem_filter.1 he
    exact ⟨h1, by simpa using h2⟩
  rw [link_resolve d .elf hp] at h
  obtain ⟨h1, rfl⟩ := resolveLabels_ok d .elf s s' () (fun e he => (ho e he).hook) h
  rw [link_resolve d .dummy hp]
  unfold resolveLabels
  rw [bind_eq, get_eq]
  simp only
  rw [resolveAll_ok d .dummy (known d s) (fun e he => (ho e (hk e he).1).hook) { s with relocs := known d s } (fun e he => by
    have := h1 e (hk e he).1
    unfold linkErr at this ⊢
    rw [value_known (hk e he).2] at this
    exact this)]
  simp only [Prod.mk.injEq, true_and]
  rw [orBytes_congr]
  intro j
  exact (mask_known s.relocs ho hb j).symm

/-- C82: the bytes which only references to what is defined elsewhere cover stay as they were assembled. -/
theorem C82_blank (hp : d.postLink = pure ()) (s s' : St) (ho : ∀ e ∈ s.relocs, Ordinary e.2)
    (hb : ∀ e ∈ s.relocs, elsewhere d s.labels e.2 = true → Blank e.2) (h : link d .elf s = (.ok (), s')) (j : Nat)
    (hj : ∀ e ∈ s.relocs, elsewhere d s.labels e.2 = false → ¬ Covers e j) : s'.bytes[j]? = s.bytes[j]? := by
  have hl := C82_elsewhere hp s s' ho hb h
  have hk : ∀ e ∈ known d s, e ∈ s.relocs ∧ elsewhere d s.labels e.2 = false := fun e he => by
    obtain ⟨h1, h2⟩ := List.mem_filter.1 he
    exact ⟨h1, by simpa using h2⟩
  have := (C36_windows d .dummy hp { s with relocs := known d s } fun e he => (ho e (hk e he).1).hook).2.1 j fun e he => hj e (hk e he).1 (hk e he).2
  rw [hl] at this
  exact this

/-- C82: the object file of a program that links by itself holds, in its sections, what the program links to: whatever is at position `a` of the output
is at the same distance from the start of its section. -/
theorem C82_object (env : Env) (hdef : ∀ p ∈ d.defines, GoodTok p.2) (hc : CustomKeeps d env SectionsRel) (hn : CustomKeeps d env NamesRel)
    (hp : d.postLink = pure ()) (depth : Nat) (code : Str) (s0 s1 s2 : St) (hr : Reach d env s0) (ha : assemble d env depth code s0 = (.ok (), s1))
    (hh : ∀ e ∈ s1.relocs, e.2.hook = none) (hl : link d .dummy s1 = (.ok (), s2)) :
    link d .elf s1 = (.ok (), s2) ∧ ∀ (c : ElfCfg) (file : Bytes) (e : Ehdr), elfFile c s2 = .ok file → readEhdr file = some e →
      ∀ (i : Nat) (name : Str) (sec : Section) (a n : Nat), s1.sections[i]? = some (name, sec) → sec.offset ≤ a →
        (a + n : Int) ≤ sec.offset + sec.size.getD 0 → window (contents file (shdr file e (i + 1))) (a - sec.offset) n = window s2.bytes a n := by
  refine ⟨C82_same _ _ hl, fun c file e hf he i name sec a n hi hlo hhi => ?_⟩
  obtain ⟨h1, -⟩ := (C43_program d env hdef hc hn hp depth code s0 s1 s2 hr ha hh (C82_same _ _ hl) c file e hf he).1 i name sec hi
  rw [h1, window_window (by omega)]
  congr 1
  omega

/-! ## A program that calls a function defined elsewhere -/

instance (r : Reloc) : Decidable (Blank r) :=
  match h : r.bits with
  | none => if hz : converted r 0 = 0 then isTrue ⟨hz, fun _ _ h' => by rw [h] at h'; cases h'⟩ else isFalse fun h => hz h.zero
  | some (hi, lo) =>
    if hz : converted r 0 = 0 ∧ lo ≤ hi then isTrue ⟨hz.1, fun _ _ h' => by rw [h] at h'; cases h'; exact hz.2⟩
    else isFalse fun h' => hz ⟨h'.zero, h'.field _ _ h⟩

def exCallCode : Str := ".section \"text\" RX\nstart:\ncall printf\njmp start\n".toList
def exCall : St := (assemble i8086 {} 3 exCallCode i8086.init).2

theorem exCall_all : (assemble i8086 {} 3 exCallCode i8086.init).1 = .ok () ∧ exCall.bytes = [0xe8, 0, 0, 0xe9, 0, 0] ∧
    (∀ e ∈ exCall.relocs, Ordinary e.2) ∧ (∀ e ∈ exCall.relocs, elsewhere i8086 exCall.labels e.2 = true → Blank e.2) ∧
    exCall.relocs.map (fun e => (e.1, e.2.label, elsewhere i8086 exCall.labels e.2)) = [(1, "printf".toList, true), (4, "start".toList, false)] ∧
    (link i8086 .elf exCall).1.toOption = some () := by decide +kernel

theorem exCall_links : ∃ s', link i8086 .elf exCall = (.ok (), s') := by
  refine ⟨_, pair_ok ?_⟩
  have h := exCall_all.2.2.2.2.2
  cases hx : (link i8086 .elf exCall).1 with
  | error e => rw [hx] at h; cases h
  | ok u => rfl

/-- The call to `printf` does not stop the object file from being made (by itself the program does not link). -/
example : ∀ e ∈ exCall.relocs, ∀ x, Fault (labelRelative i8086.sy exCall.labels) exCall.bytes.length e x →
    elsewhere i8086 exCall.labels e.2 = true ∧ x = .unknownLabel e.2.label := by
  obtain ⟨s', h⟩ := exCall_links
  exact (C82_success rfl exCall exCall_all.2.2.1 exCall_all.2.2.2.1).1 (by rw [h])

example : (link i8086 .dummy exCall).1.toOption = none := by decide +kernel

/-- Its field, the two bytes after the opcode, is left 0. -/
example : ∃ s', link i8086 .elf exCall = (.ok (), s') ∧ s'.bytes[1]? = some 0 ∧ s'.bytes[2]? = some 0 := by
  obtain ⟨s', h⟩ := exCall_links
  have hc : ∀ e ∈ exCall.relocs, elsewhere i8086 exCall.labels e.2 = false → ¬ (e.1 ≤ 1 ∧ 1 < e.1 + e.2.size) ∧ ¬ (e.1 ≤ 2 ∧ 2 < e.1 + e.2.size) := by
    decide +kernel
  have h1 := C82_blank rfl exCall s' exCall_all.2.2.1 exCall_all.2.2.2.1 h 1 fun e he hk => (hc e he hk).1
  have h2 := C82_blank rfl exCall s' exCall_all.2.2.1 exCall_all.2.2.2.1 h 2 fun e he hk => (hc e he hk).2
  rw [exCall_all.2.1] at h1 h2
  exact ⟨s', h, h1, h2⟩

/-- The jump to `start` is linked as it is without the call: 6 bytes back. -/
example : (link i8086 .dummy { exCall with relocs := known i8086 exCall }).2.bytes = [0xe8, 0, 0, 0xe9, 0xfa, 0xff] := by decide +kernel

example : ∃ s', link i8086 .elf exCall = (.ok (), s') ∧ s'.bytes = [0xe8, 0, 0, 0xe9, 0xfa, 0xff] := by
  obtain ⟨s', h⟩ := exCall_links
  have h' : (link i8086 .dummy { exCall with relocs := known i8086 exCall }).2.bytes = [0xe8, 0, 0, 0xe9, 0xfa, 0xff] := by decide +kernel
  have e := C82_elsewhere rfl exCall s' exCall_all.2.2.1 exCall_all.2.2.2.1 h
  generalize link i8086 .dummy { exCall with relocs := known i8086 exCall } = p at e h'
  subst e
  exact ⟨s', h, h'⟩

/-! ## A program that does not need anything -/

def exAloneCode : Str := ".section \"data\" RW\n.db 7\n.section \"text\" RX\nstart:\nnop\njmp start\n".toList
def exAlone : St := (assemble i8086 {} 3 exAloneCode i8086.init).2
def exAloneOut : St := (link i8086 .dummy exAlone).2

theorem exAlone_all : (assemble i8086 {} 3 exAloneCode i8086.init).1 = .ok () ∧ (∀ e ∈ exAlone.relocs, e.2.hook = none) ∧
    (link i8086 .dummy exAlone).1 = .ok () ∧ exAloneOut.bytes = [7, 0x90, 0xe9, 0xfc, 0xff] ∧
    exAlone.sections = [("data".toList, ⟨0, 0, "RW".toList, some 1, some 1⟩), ("text".toList, ⟨1, 1, "RX".toList, some 5, some 4⟩)] := by decide +kernel

/-- In the object file the jump is at distance 1 from the start of the second section. -/
example (c : ElfCfg) (file : Bytes) (e : Ehdr) (h : elfFile c exAloneOut = .ok file) (he : readEhdr file = some e) :
    window (contents file (shdr file e 2)) 1 3 = [0xe9, 0xfc, 0xff] := by
  have := (C82_object {} (by intro p hp; cases hp) (noCustom (fun _ => rfl) _) (noCustom (fun _ => rfl) _) rfl 3 exAloneCode
    i8086.init exAlone exAloneOut Reach.init (pair_ok exAlone_all.1) exAlone_all.2.1 (pair_ok exAlone_all.2.2.1)).2 c file e h he
    1 "text".toList ⟨1, 1, "RX".toList, some 5, some 4⟩ 2 3 (by rw [exAlone_all.2.2.2.2]; rfl) (by decide) (by decide)
  rw [exAlone_all.2.2.2.1] at this
  exact this

example : link i8086 .elf exAlone = (.ok (), exAloneOut) := C82_same _ _ (pair_ok exAlone_all.2.2.1)

end Necro
