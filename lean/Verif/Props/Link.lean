import Verif.Lemmas.Link
import Verif.Props.Utils
import Verif.Props.Numbers
/-!
# C36–C40: linking
-/

namespace Necro
open Spec
open M (throw get modify lift forEach)

/-- `link` of an assembler class without post-link pass. -/
theorem link_resolve (d : Dialect) (k : LinkerKind) (hp : d.postLink = pure ()) : link d k = resolveLabels d k := by
  unfold link
  rw [hp]
  funext s
  rw [bind_eq]
  cases h : resolveLabels d k s with
  | mk r s' => cases r <;> rfl

/-- The value of a label name that is not a formula. -/
theorem plain_value (sy : NumSyntax) (ls : Labels) (n : Str) (hne : n ≠ []) (hch : ∀ c ∈ n, formulaChar c = false)
    (start : Int) : labelRelative sy ls n start = .ok ((ls.lookup n).map fun l => l.org + l.base - start) := by
  have hw : WrittenFormula [] n [] := ⟨by simp, hne, hch, by simp⟩
  have h2 := hw.decompose
  simp only [writeOps, List.nil_append, List.flatMap_nil, List.append_nil] at h2
  cases hl : ls.lookup n with
  | none =>
    unfold labelRelative labelAddressW
    simp only [h2, dget_eq_lookup, hl]
    rfl
  | some l =>
    have := C16_label_relative sy ls [] n [] l start hw hl
    simp only [writeOps, List.nil_append, List.flatMap_nil, List.append_nil] at this
    rw [this]
    rfl

/-! ## C36 -/

/-- C36: whatever the outcome, linking changes no byte outside the fields of the recorded
references, keeps the length, only ever sets bits, and touches nothing else. -/
theorem C36_windows (d : Dialect) (k : LinkerKind) (hp : d.postLink = pure ()) (s : St)
    (hh : ∀ e ∈ s.relocs, e.2.hook = none) :
    (link d k s).2.bytes.length = s.bytes.length ∧
    (∀ j : Nat, (∀ e ∈ s.relocs, ¬ Covers e j) → (link d k s).2.bytes[j]? = s.bytes[j]?) ∧
    (∀ (j : Nat) b b', s.bytes[j]? = some b → (link d k s).2.bytes[j]? = some b' → SubBits b b') ∧
    { (link d k s).2 with bytes := s.bytes } = s := by
  rw [link_resolve d k hp]
  unfold resolveLabels
  rw [bind_eq, get_eq]
  simp only
  obtain ⟨f, hf, e⟩ := orStep_forEach (W := fun j => ∃ e ∈ s.relocs, Covers e j) (f := resolveOne d k) (l := s.relocs)
    (fun e he => orStep_resolveOne d k _ e (hh e he) fun j hj => ⟨e, he, hj⟩) s
  rw [e]
  refine ⟨orBytes_length _ _, fun j hj => ?_, fun j b b' hb hb' i hi => ?_, rfl⟩
  · rw [orBytes_get, hf j (by rintro ⟨e, he, h⟩; exact hj e he h)]
    cases s.bytes[j]? <;> simp
  · rw [orBytes_get, hb] at hb'
    simp only [Option.map_some, Option.some.injEq] at hb'
    subst hb'
    simp [hi]

/-! ## C38 -/

theorem inRange_ref (r : Reloc) (hw : 1 ≤ r.bitsSize) (v : Int) (h : ¬ (r.relative = 0 ∧ v < 0)) :
    inBitRangeDecimal v r.bitsSize (decide (r.relative ≠ 0)) = true ↔ RefRange r v := by
  unfold RefRange
  by_cases hr : r.relative = 0
  · have : 0 ≤ v := by omega
    have hpos : (0 : Int) < 2 ^ (r.bitsSize - 1) := Int.pow_pos (by decide)
    rw [if_neg (by simp [hr])]
    simp only [hr, ne_eq, not_true_eq_false, decide_false]
    rw [C03_in_bit_range_decimal_unsigned v _ hw]
    omega
  · rw [if_pos hr]
    simp only [ne_eq, hr, not_false_eq_true, decide_true]
    rw [C03_in_bit_range_decimal_signed v _ hw]

theorem packOne (hi lo : Nat) (v : Int) :
    (FieldOk ⟨hi, lo, v⟩ → ∃ x, packBits 0 [⟨hi, lo, v⟩] = .ok x) ∧
    (¬ FieldOk ⟨hi, lo, v⟩ → packBits 0 [⟨hi, lo, v⟩] = .error .invalidBitRange) := by
  have h := C04_pack_bits_ok_iff 0 [⟨hi, lo, v⟩]
  simp only [List.mem_singleton, forall_eq] at h
  refine ⟨h.2, fun hn => ?_⟩
  cases hx : packBits 0 [⟨hi, lo, v⟩] with
  | ok x => exact absurd (h.1 ⟨x, hx⟩) hn
  | error e => rw [C04_pack_bits_error _ _ _ hx]

/-- The checks of one reference with a known target, in the words of the specification. -/
theorem encodeTarget_cases (r : Reloc) (ho : Ordinary r) (addr t : Int) (h0 : r.relative = 0 → t = addr) :
    (∃ v, encodeTarget r addr t = .ok v ∧ Pattern r t v ∧ addr % (r.alignment : Int) = 0 ∧
      (r.relative = 0 → 0 ≤ addr) ∧ RefRange r t ∧ ∀ hi lo, r.bits = some (hi, lo) → FieldOk ⟨hi, lo, converted r t⟩) ∨
    (encodeTarget r addr t = .error (.alignmentError r.label) ∧ addr % (r.alignment : Int) ≠ 0) ∨
    (encodeTarget r addr t = .error (.onlyForwardAddressesAllowed r.label) ∧ r.relative = 0 ∧ addr < 0) ∨
    (encodeTarget r addr t = .error .notInBitRange ∧ ¬ RefRange r t) ∨
    (encodeTarget r addr t = .error .invalidBitRange ∧ ∃ hi lo, r.bits = some (hi, lo) ∧ ¬ FieldOk ⟨hi, lo, converted r t⟩) := by
  unfold encodeTarget
  rw [if_neg ho.alignment]
  by_cases ha : addr % (r.alignment : Int) ≠ 0
  · rw [if_pos ha]; exact .inr (.inl ⟨rfl, ha⟩)
  rw [if_neg ha]
  by_cases hn : r.relative = 0 ∧ t < 0
  · rw [if_pos hn]; exact .inr (.inr (.inl ⟨rfl, hn.1, by have := h0 hn.1; omega⟩))
  rw [if_neg hn]
  have hr := inRange_ref r ho.width t hn
  by_cases hin : inBitRangeDecimal t r.bitsSize (decide (r.relative ≠ 0)) = true
  · have hc : (match r.filter with | some f => f t | none => t) = converted r t := by
      unfold converted; cases r.filter <;> rfl
    rw [if_neg (by rw [hin]; decide)]
    simp only [hc]
    have hneg : r.relative = 0 → 0 ≤ addr := fun h => by have := h0 h; omega
    cases hb : r.bits with
    | none => exact .inl ⟨_, rfl, by simp only [Pattern, hb]; exact hc, by omega, hneg, hr.1 hin, by simp⟩
    | some p =>
      obtain ⟨hi, lo⟩ := p
      simp only
      have hp := packOne hi lo (converted r t)
      by_cases hf : FieldOk ⟨hi, lo, converted r t⟩
      · obtain ⟨x, hx⟩ := hp.1 hf
        refine .inl ⟨x, hx, ?_, by omega, hneg, hr.1 hin, ?_⟩
        · simp only [Pattern, hb]
          intro i
          have := C04_pack_bits_bit 0 x _ hx i
          rw [Bool.eq_iff_iff, this]
          simp [bit, and_assoc]
        · intro hi' lo' h
          simp only [Option.some.injEq, Prod.mk.injEq] at h
          obtain ⟨rfl, rfl⟩ := h
          exact hf
      · exact .inr (.inr (.inr (.inr ⟨hp.2 hf, hi, lo, rfl, hf⟩)))
  · rw [if_pos (by simpa using hin)]
    exact .inr (.inr (.inr (.inl ⟨rfl, fun h => hin (hr.2 h)⟩)))

theorem relative_none (sy : NumSyntax) (ls : Labels) (n : Str) (a b : Int) (h : labelRelative sy ls n a = .ok none) :
    labelRelative sy ls n b = .ok none := by
  unfold labelRelative labelAddressW at *
  simp only at *
  cases hl : dget ls (getMathFormula n).body with
  | none => rfl
  | some l =>
    rw [hl] at h
    simp only at h
    split at h <;> simp at h

/-- What linking one reference with the default linker computes. -/
theorem linkValue_cases (d : Dialect) (ls : Labels) (r : Reloc) (ho : Ordinary r) (a : Nat) (len : Nat) :
    (∃ addr t v, linkValue d .dummy ls r = .ok v ∧ labelRelative d.sy ls r.label 0 = .ok (some addr) ∧
      labelRelative d.sy ls r.label r.relative = .ok (some t) ∧ Pattern r t v ∧ addr % (r.alignment : Int) = 0 ∧
      (r.relative = 0 → 0 ≤ addr) ∧ RefRange r t ∧ ∀ hi lo, r.bits = some (hi, lo) → FieldOk ⟨hi, lo, converted r t⟩) ∨
    ∃ x, linkValue d .dummy ls r = .error x ∧ Fault (labelRelative d.sy ls) len (a, r) x := by
  have e0 : labelAddress d.sy ls r.label = labelRelative d.sy ls r.label 0 := rfl
  unfold linkValue resolveTarget
  rw [e0]
  cases h0 : labelRelative d.sy ls r.label 0 with
  | error x => exact .inr ⟨x, rfl, .expr (.inl h0)⟩
  | ok o =>
    simp only
    have hrel : (if r.relative ≠ 0 then labelRelative d.sy ls r.label r.relative else .ok o) =
        labelRelative d.sy ls r.label r.relative := by
      by_cases hr : r.relative = 0
      · rw [if_neg (by simp [hr]), hr, h0]
      · rw [if_pos hr]
    rw [hrel]
    cases h1 : labelRelative d.sy ls r.label r.relative with
    | error x => exact .inr ⟨x, rfl, .expr (.inr h1)⟩
    | ok o1 =>
      cases o1 with
      | none => exact .inr ⟨_, rfl, .unknown h1⟩
      | some t =>
        cases o with
        | none => have := relative_none d.sy ls r.label 0 r.relative h0; rw [this] at h1; simp at h1
        | some addr =>
          simp only [Option.getD_some]
          have hta : r.relative = 0 → t = addr := by
            intro hr
            rw [hr, h0] at h1
            simp only [Except.ok.injEq, Option.some.injEq] at h1
            exact h1.symm
          rcases encodeTarget_cases r ho addr t hta with ⟨v, hv, h⟩ | ⟨hv, h⟩ | ⟨hv, h, h'⟩ | ⟨hv, h⟩ | ⟨hv, hi, lo, h, h'⟩
          · exact .inl ⟨addr, t, v, hv, rfl, rfl, h⟩
          · exact .inr ⟨_, hv, .misaligned h0 h⟩
          · exact .inr ⟨_, hv, .negative h0 h h'⟩
          · exact .inr ⟨_, hv, .tooWide h1 h⟩
          · exact .inr ⟨_, hv, .noField h1 h h'⟩

/-- One reference is accepted exactly when nothing is wrong with it, and the error reported
is one of the things wrong. -/
theorem linkErr_fault (d : Dialect) (ls : Labels) (len : Nat) (e : Nat × Reloc) (ho : Ordinary e.2) :
    (∀ x, linkErr d .dummy ls len e = some x → Fault (labelRelative d.sy ls) len e x) ∧
    (linkErr d .dummy ls len e = none → ∀ x, ¬ Fault (labelRelative d.sy ls) len e x) := by
  obtain ⟨a, r⟩ := e
  unfold linkErr
  rcases linkValue_cases d ls r ho a len with ⟨addr, t, v, hv, h0, h1, _, hal, hneg, hrg, hfd⟩ | ⟨x, hv, hx⟩
  · rw [hv]
    simp only
    by_cases hf : r.size = 0 ∨ a + r.size ≤ len
    · rw [if_pos hf]
      refine ⟨by simp, fun _ x hx => ?_⟩
      cases hx with
      | expr h => rw [h0, h1] at h; simp at h
      | unknown h => rw [h1] at h; simp at h
      | misaligned h h' =>
        rw [h0] at h
        simp only [Except.ok.injEq, Option.some.injEq] at h
        subst h; exact h' hal
      | negative h hr h' =>
        rw [h0] at h
        simp only [Except.ok.injEq, Option.some.injEq] at h
        subst h; have := hneg hr; omega
      | tooWide h h' =>
        rw [h1] at h
        simp only [Except.ok.injEq, Option.some.injEq] at h
        subst h; exact h' hrg
      | noField h hb h' =>
        rw [h1] at h
        simp only [Except.ok.injEq, Option.some.injEq] at h
        subst h; exact h' (hfd _ _ hb)
      | outside h h' => omega
    · rw [if_neg hf]
      refine ⟨?_, by simp⟩
      intro x hx
      simp only [Option.some.injEq] at hx
      subst hx
      exact .outside (by omega) (by omega)
  · rw [hv]
    refine ⟨?_, by simp⟩
    intro y hy
    simp only [Option.some.injEq] at hy
    subst hy
    exact hx

/-- C38: linking succeeds exactly when there is nothing wrong with any reference. -/
theorem C38_success (d : Dialect) (hp : d.postLink = pure ()) (s : St) (ho : ∀ e ∈ s.relocs, Ordinary e.2) :
    (link d .dummy s).1 = .ok () ↔
      ∀ e ∈ s.relocs, ∀ x, ¬ Fault (labelRelative d.sy s.labels) s.bytes.length e x := by
  rw [link_resolve d .dummy hp]
  unfold resolveLabels
  rw [bind_eq, get_eq]
  simp only
  rw [resolveAll_result d .dummy s.relocs (fun e he => (ho e he).hook)]
  constructor
  · intro h e he
    cases hf : s.relocs.findSome? (linkErr d .dummy s.labels s.bytes.length) with
    | some x => rw [hf] at h; cases h
    | none => exact (linkErr_fault d s.labels s.bytes.length e (ho e he)).2 (findSome?_none.1 hf e he)
  · intro h
    have : s.relocs.findSome? (linkErr d .dummy s.labels s.bytes.length) = none := by
      rw [findSome?_none]
      intro e he
      cases hx : linkErr d .dummy s.labels s.bytes.length e with
      | none => rfl
      | some x => exact absurd ((linkErr_fault d s.labels s.bytes.length e (ho e he)).1 x hx) (h e he x)
    rw [this]

/-- C38: a reported error is something wrong with the first reference that has anything
wrong. -/
theorem C38_error (d : Dialect) (hp : d.postLink = pure ()) (s : St) (ho : ∀ e ∈ s.relocs, Ordinary e.2) (x : Err)
    (h : (link d .dummy s).1 = .error x) :
    ∃ pre e post, s.relocs = pre ++ e :: post ∧ Fault (labelRelative d.sy s.labels) s.bytes.length e x ∧
      ∀ f ∈ pre, ∀ y, ¬ Fault (labelRelative d.sy s.labels) s.bytes.length f y := by
  rw [link_resolve d .dummy hp] at h
  unfold resolveLabels at h
  rw [bind_eq, get_eq] at h
  simp only at h
  rw [resolveAll_result d .dummy s.relocs (fun e he => (ho e he).hook)] at h
  cases hf : s.relocs.findSome? (linkErr d .dummy s.labels s.bytes.length) with
  | none => rw [hf] at h; cases h
  | some y =>
    rw [hf] at h
    simp only [Except.error.injEq] at h
    subst h
    obtain ⟨pre, e, post, hsp, he, hpre⟩ := List.findSome?_eq_some_iff.1 hf
    refine ⟨pre, e, post, hsp, (linkErr_fault d s.labels _ e (ho e (by rw [hsp]; simp))).1 _ he, fun f hfm => ?_⟩
    exact (linkErr_fault d s.labels _ f (ho f (by rw [hsp]; simp [hfm]))).2 (by simpa using hpre f hfm)

/-- C38: if everything that is wrong anywhere is the same error, that error is reported. -/
theorem C38_exact (d : Dialect) (hp : d.postLink = pure ()) (s : St) (ho : ∀ e ∈ s.relocs, Ordinary e.2) (x : Err)
    (hx : ∃ e ∈ s.relocs, Fault (labelRelative d.sy s.labels) s.bytes.length e x)
    (honly : ∀ e ∈ s.relocs, ∀ y, Fault (labelRelative d.sy s.labels) s.bytes.length e y → y = x) :
    (link d .dummy s).1 = .error x := by
  cases h : (link d .dummy s).1 with
  | ok u =>
    obtain ⟨e, he, hf⟩ := hx
    exact absurd hf ((C38_success d hp s ho).1 h e he x)
  | error y =>
    obtain ⟨pre, e, post, hsp, hf, _⟩ := C38_error d hp s ho y h
    rw [honly e (by rw [hsp]; simp) y hf]

/-- C38: an undefined label is always noticed, and only undefined labels are reported as
such (for label names that are not formulas). -/
theorem C38_unknown (d : Dialect) (hp : d.postLink = pure ()) (s : St) (ho : ∀ e ∈ s.relocs, Ordinary e.2)
    (hplain : ∀ e ∈ s.relocs, e.2.label ≠ [] ∧ ∀ c ∈ e.2.label, formulaChar c = false) :
    (∀ e ∈ s.relocs, s.labels.lookup e.2.label = none → ∃ x, (link d .dummy s).1 = .error x) ∧
    ∀ n, (link d .dummy s).1 = .error (.unknownLabel n) →
      ∃ e ∈ s.relocs, e.2.label = n ∧ s.labels.lookup n = none := by
  constructor
  · intro e he hl
    cases h : (link d .dummy s).1 with
    | error x => exact ⟨x, rfl⟩
    | ok u =>
      refine absurd (Fault.unknown (a := e.1) ?_) ((C38_success d hp s ho).1 h e he _)
      rw [plain_value d.sy s.labels e.2.label (hplain e he).1 (hplain e he).2, hl]
      rfl
  · intro n h
    obtain ⟨pre, ⟨a, r⟩, post, hsp, hf, _⟩ := C38_error d hp s ho _ h
    have hm : (a, r) ∈ s.relocs := by rw [hsp]; simp
    have hpl := fun st => plain_value d.sy s.labels r.label (hplain _ hm).1 (hplain _ hm).2 st
    generalize hx : Err.unknownLabel n = x at hf
    cases hf with
    | expr h => rw [hpl, hpl] at h; simp at h
    | unknown hk =>
      rw [hpl] at hk
      injection hx with hx
      subst hx
      refine ⟨_, hm, rfl, ?_⟩
      cases hl : s.labels.lookup r.label with
      | none => rfl
      | some l => rw [hl] at hk; simp at hk
    | misaligned _ _ => cases hx
    | negative _ _ _ => cases hx
    | tooWide _ _ => cases hx
    | noField _ _ _ => cases hx
    | outside _ _ => cases hx

/-! ## C37 -/

theorem storedValue_eq {d : Dialect} {k : LinkerKind} {ls : Labels} {r : Reloc} {v : Int}
    (h : linkValue d k ls r = .ok v) : storedValue d k ls r = v := by
  unfold storedValue; rw [h]

/-- C37: after a successful link, the field of a reference that shares no byte with another
holds what was there, ORed with the pattern of the label's value. -/
theorem C37_bits (d : Dialect) (hp : d.postLink = pure ()) (s s' : St) (u : Unit) (h : link d .dummy s = (.ok u, s'))
    (ho : ∀ e ∈ s.relocs, Ordinary e.2) (pre post : List (Nat × Reloc)) (a : Nat) (r : Reloc)
    (hsp : s.relocs = pre ++ (a, r) :: post) (hap : ∀ f ∈ pre ++ post, Apart (a, r) f) :
    ∃ addr t v, labelRelative d.sy s.labels r.label 0 = .ok (some addr) ∧
      labelRelative d.sy s.labels r.label r.relative = .ok (some t) ∧
      addr % (r.alignment : Int) = 0 ∧ (r.relative = 0 → 0 ≤ t) ∧ RefRange r t ∧ Pattern r t v ∧
      ∀ i, i < 8 * r.size →
        bit (ofBytes d.bigEndian (window s'.bytes a r.size)) i =
          (bit (ofBytes d.bigEndian (window s.bytes a r.size)) i || bit v i) := by
  rw [link_resolve d .dummy hp] at h
  obtain ⟨hok, rfl⟩ := resolveLabels_ok d .dummy s s' u (fun e he => (ho e he).hook) h
  have hm : (a, r) ∈ s.relocs := by rw [hsp]; simp
  have herr := hok _ hm
  rcases linkValue_cases d s.labels r (ho _ hm) a s.bytes.length with ⟨addr, t, v, hv, h0, h1, hpat, hal, hneg, hrg, _⟩ | ⟨x, hv, _⟩
  · refine ⟨addr, t, v, h0, h1, hal, fun hr => ?_, hrg, hpat, fun i hi => ?_⟩
    · have hh := hneg hr
      rw [hr, h0] at h1
      simp only [Except.ok.injEq, Option.some.injEq] at h1
      omega
    · unfold linkErr at herr
      rw [hv] at herr
      simp only at herr
      have hfit : a + r.size ≤ s.bytes.length := by
        by_cases hf : r.size = 0 ∨ a + r.size ≤ s.bytes.length
        · omega
        · rw [if_neg hf] at herr; simp at herr
      rw [bit_natCast, bit_natCast]
      refine ofBytes_orWindow d s.bytes _ a r.size v hfit (fun j h1 h2 => ?_) i hi
      unfold linkMask
      rw [hsp]
      have hz : ∀ f ∈ pre ++ post, contrib d f.1 f.2.size (storedValue d .dummy s.labels f.2) j = 0#8 := by
        intro f hf
        unfold contrib
        rw [if_neg]
        exact fun hc => hap f hf j ⟨⟨h1, h2⟩, hc⟩
      have hs := storedValue_eq hv
      by_cases hz0 : contrib d a r.size v j = 0#8
      · rw [hz0]
        apply orAll_zero
        intro b hb
        rw [List.mem_map] at hb
        obtain ⟨f, hf, rfl⟩ := hb
        rcases List.mem_append.1 hf with hf | hf
        · exact hz f (List.mem_append_left _ hf)
        · rcases List.mem_cons.1 hf with rfl | hf
          · rw [← hz0]; simp only [hs]
          · exact hz f (List.mem_append_right _ hf)
      · apply orAll_one
        · rw [List.mem_map]
          exact ⟨(a, r), by simp, by simp only [hs]⟩
        · intro b hb
          rw [List.mem_map] at hb
          obtain ⟨f, hf, rfl⟩ := hb
          rcases List.mem_append.1 hf with hf | hf
          · exact .inr (hz f (List.mem_append_left _ hf))
          · rcases List.mem_cons.1 hf with rfl | hf
            · exact .inl (by simp only [hs])
            · exact .inr (hz f (List.mem_append_right _ hf))
  · unfold linkErr at herr
    rw [hv] at herr
    simp at herr

/-- A window all of whose bits below `8 * size` follow `v` reads as `v` modulo the width. -/
theorem window_value (be : Bool) (w : Bytes) (v : Int) (size : Nat) (hl : w.length ≤ size)
    (h : ∀ i, i < 8 * size → bit (ofBytes be w) i = bit v i) : ((ofBytes be w : Nat) : Int) = v % 2 ^ (8 * size) := by
  apply bit_ext
  intro i
  rw [bit_emod_pow]
  by_cases hi : i < 8 * size
  · simp only [hi, decide_true, Bool.true_and]; exact h i hi
  · simp only [hi, decide_false, Bool.false_and]
    rw [bit_natCast]
    apply Nat.testBit_lt_two_pow
    refine Nat.lt_of_lt_of_le (ofBytes_lt be w) (Nat.pow_le_pow_right (by decide) (by omega))

theorem window_length_le (bs : Bytes) (a size : Nat) : (window bs a size).length ≤ size := by
  simp only [window, List.length_take]; omega

/-- C37: an absolute reference recorded over zero bytes reads as the label's value. -/
theorem C37_absolute (d : Dialect) (hp : d.postLink = pure ()) (s s' : St) (u : Unit) (h : link d .dummy s = (.ok u, s'))
    (ho : ∀ e ∈ s.relocs, Ordinary e.2) (pre post : List (Nat × Reloc)) (a : Nat) (r : Reloc)
    (hsp : s.relocs = pre ++ (a, r) :: post) (hap : ∀ f ∈ pre ++ post, Apart (a, r) f)
    (hrel : r.relative = 0) (hfil : r.filter = none) (hbits : r.bits = none) (hsize : r.bitsSize ≤ 8 * r.size)
    (hzero : ofBytes d.bigEndian (window s.bytes a r.size) = 0) :
    labelRelative d.sy s.labels r.label 0 = .ok (some ((ofBytes d.bigEndian (window s'.bytes a r.size) : Nat) : Int)) := by
  obtain ⟨addr, t, v, h0, h1, _, hneg, hrg, hpat, hb⟩ := C37_bits d hp s s' u h ho pre post a r hsp hap
  rw [hrel] at h1
  rw [h1]
  have hv : v = t := by simpa only [Pattern, hbits, converted, hfil] using hpat
  subst hv
  have hw := window_value d.bigEndian (window s'.bytes a r.size) v r.size (window_length_le _ _ _) (by
    intro i hi
    rw [hb i hi, hzero]
    simp [bit_zero])
  rw [hw, Int.emod_eq_of_lt (hneg hrel)]
  unfold RefRange at hrg
  rw [if_neg (by simp [hrel])] at hrg
  have : (2 : Int) ^ r.bitsSize ≤ 2 ^ (8 * r.size) := by
    exact_mod_cast Nat.pow_le_pow_right (show 0 < 2 by decide) hsize
  omega

/-- C37, C40: a relative reference recorded over zero bytes reads, in two's complement, as
the value of the label relative to the recorded start. -/
theorem C37_relative (d : Dialect) (hp : d.postLink = pure ()) (s s' : St) (u : Unit) (h : link d .dummy s = (.ok u, s'))
    (ho : ∀ e ∈ s.relocs, Ordinary e.2) (pre post : List (Nat × Reloc)) (a : Nat) (r : Reloc)
    (hsp : s.relocs = pre ++ (a, r) :: post) (hap : ∀ f ∈ pre ++ post, Apart (a, r) f)
    (hrel : r.relative ≠ 0) (hfil : r.filter = none) (hbits : r.bits = none) (hsize : r.bitsSize ≤ 8 * r.size)
    (hzero : ofBytes d.bigEndian (window s.bytes a r.size) = 0) :
    ∃ disp, disp = toSigned (8 * r.size) (ofBytes d.bigEndian (window s'.bytes a r.size)) ∧
      labelRelative d.sy s.labels r.label r.relative = .ok (some disp) ∧
      -(2 ^ (r.bitsSize - 1)) ≤ disp ∧ disp < 2 ^ (r.bitsSize - 1) := by
  obtain ⟨addr, t, v, h0, h1, _, hneg, hrg, hpat, hb⟩ := C37_bits d hp s s' u h ho pre post a r hsp hap
  have hv : v = t := by simpa only [Pattern, hbits, converted, hfil] using hpat
  subst hv
  have hw := window_value d.bigEndian (window s'.bytes a r.size) v r.size (window_length_le _ _ _) (by
    intro i hi
    rw [hb i hi, hzero]
    simp [bit_zero])
  unfold RefRange at hrg
  rw [if_pos hrel] at hrg
  have hwid := (ho (a, r) (by rw [hsp]; simp)).width
  simp only at hwid
  have hle : (2 : Int) ^ (r.bitsSize - 1) ≤ 2 ^ (8 * r.size - 1) := by
    exact_mod_cast Nat.pow_le_pow_right (show 0 < 2 by decide) (show r.bitsSize - 1 ≤ 8 * r.size - 1 by omega)
  have h2 : (2 : Int) ^ (8 * r.size) = 2 * 2 ^ (8 * r.size - 1) := by
    rw [show 8 * r.size = (8 * r.size - 1) + 1 by omega, Int.pow_succ]
    rw [show 8 * r.size - 1 + 1 - 1 = 8 * r.size - 1 by omega]
    omega
  refine ⟨v, ?_, h1, hrg⟩
  have hn : (((2 : Nat) ^ (8 * r.size) : Nat) : Int) = 2 ^ (8 * r.size) := by norm_cast
  unfold toSigned
  by_cases hv0 : 0 ≤ v
  · rw [Int.emod_eq_of_lt hv0 (by omega)] at hw
    rw [if_pos (by omega)]
    exact hw.symm
  · have : v % 2 ^ (8 * r.size) = v + 2 ^ (8 * r.size) := by
      rw [← Int.add_emod_right, Int.emod_eq_of_lt (by omega) (by omega)]
    rw [this] at hw
    rw [if_neg (by omega)]
    omega

/-- C37: a reference declared for a bit field leaves every other bit of the encoding alone
and, if the field was clear, fills it with the converted value modulo its width. -/
theorem C37_field (d : Dialect) (hp : d.postLink = pure ()) (s s' : St) (u : Unit) (h : link d .dummy s = (.ok u, s'))
    (ho : ∀ e ∈ s.relocs, Ordinary e.2) (pre post : List (Nat × Reloc)) (a : Nat) (r : Reloc)
    (hsp : s.relocs = pre ++ (a, r) :: post) (hap : ∀ f ∈ pre ++ post, Apart (a, r) f)
    (hi lo : Nat) (hbits : r.bits = some (hi, lo)) (hlo : lo ≤ hi) (hhi : hi < 8 * r.size) :
    (∀ i, i < lo ∨ hi < i → bit (ofBytes d.bigEndian (window s'.bytes a r.size)) i =
      bit (ofBytes d.bigEndian (window s.bytes a r.size)) i) ∧
    ∃ t, labelRelative d.sy s.labels r.label r.relative = .ok (some t) ∧ RefRange r t ∧
      ((∀ i, lo ≤ i → i ≤ hi → bit (ofBytes d.bigEndian (window s.bytes a r.size)) i = false) →
        ((ofBytes d.bigEndian (window s'.bytes a r.size) : Nat) : Int) / 2 ^ lo % 2 ^ (hi - lo + 1) =
          converted r t % 2 ^ (hi - lo + 1)) := by
  obtain ⟨addr, t, v, h0, h1, _, hneg, hrg, hpat, hb⟩ := C37_bits d hp s s' u h ho pre post a r hsp hap
  have hv : ∀ i, bit v i = (decide (lo ≤ i ∧ i ≤ hi) && bit (converted r t) (i - lo)) := by
    simpa only [Pattern, hbits] using hpat
  refine ⟨fun i hi' => ?_, t, h1, hrg, fun hclear => ?_⟩
  · by_cases hb8 : i < 8 * r.size
    · rw [hb i hb8, hv i]
      have : ¬ (lo ≤ i ∧ i ≤ hi) := by omega
      simp [this]
    · have big : ∀ w : Bytes, w.length ≤ r.size → bit (ofBytes d.bigEndian w) i = false := by
        intro w hw
        rw [bit_natCast]
        apply Nat.testBit_lt_two_pow
        exact Nat.lt_of_lt_of_le (ofBytes_lt _ w) (Nat.pow_le_pow_right (by decide) (by omega))
      rw [big _ (window_length_le _ _ _), big _ (window_length_le _ _ _)]
  · apply bit_ext
    intro i
    rw [bit_emod_pow, bit_emod_pow, bit_div_pow]
    by_cases hi' : i < hi - lo + 1
    · simp only [hi', decide_true, Bool.true_and]
      rw [hb _ (by omega), hclear _ (by omega) (by omega), hv]
      have : lo ≤ i + lo ∧ i + lo ≤ hi := by omega
      simp [this]
    · simp [hi']

/-! ## C40 -/

/-- C40: a relative reference to a plain label reaches it: the recorded start plus the
stored displacement is the label's address, and the displacement fits the width. -/
theorem C40_reaches (d : Dialect) (hp : d.postLink = pure ()) (s s' : St) (u : Unit) (h : link d .dummy s = (.ok u, s'))
    (ho : ∀ e ∈ s.relocs, Ordinary e.2) (pre post : List (Nat × Reloc)) (a : Nat) (r : Reloc)
    (hsp : s.relocs = pre ++ (a, r) :: post) (hap : ∀ f ∈ pre ++ post, Apart (a, r) f)
    (hrel : r.relative ≠ 0) (hfil : r.filter = none) (hbits : r.bits = none) (hsize : r.bitsSize ≤ 8 * r.size)
    (hzero : ofBytes d.bigEndian (window s.bytes a r.size) = 0)
    (hne : r.label ≠ []) (hch : ∀ c ∈ r.label, formulaChar c = false) :
    ∃ l disp, s.labels.lookup r.label = some l ∧
      disp = toSigned (8 * r.size) (ofBytes d.bigEndian (window s'.bytes a r.size)) ∧
      r.relative + disp = l.org + l.base ∧ -(2 ^ (r.bitsSize - 1)) ≤ disp ∧ disp < 2 ^ (r.bitsSize - 1) := by
  obtain ⟨disp, hd, hl, hr⟩ := C37_relative d hp s s' u h ho pre post a r hsp hap hrel hfil hbits hsize hzero
  rw [plain_value d.sy s.labels r.label hne hch] at hl
  cases hk : s.labels.lookup r.label with
  | none => rw [hk] at hl; simp at hl
  | some l =>
    rw [hk] at hl
    simp only [Option.map_some, Except.ok.injEq, Option.some.injEq] at hl
    exact ⟨l, disp, rfl, hd, by omega, hr⟩

/-- C40: and it is rejected exactly when the distance does not fit. -/
theorem C40_rejected (d : Dialect) (hp : d.postLink = pure ()) (s : St) (a : Nat) (r : Reloc) (l : LabelInfo)
    (ho : Ordinary r) (hrel : r.relative ≠ 0) (hbits : r.bits = none) (hal : (l.org + l.base) % (r.alignment : Int) = 0)
    (hne : r.label ≠ []) (hch : ∀ c ∈ r.label, formulaChar c = false) (hl : s.labels.lookup r.label = some l)
    (hs : s.relocs = [(a, r)]) (hfit : a + r.size ≤ s.bytes.length) :
    (link d .dummy s).1 =
      if -(2 ^ (r.bitsSize - 1)) ≤ l.org + l.base - r.relative ∧ l.org + l.base - r.relative < 2 ^ (r.bitsSize - 1)
      then .ok () else .error .notInBitRange := by
  have hpl := fun st => plain_value d.sy s.labels r.label hne hch st
  simp only [hl, Option.map_some] at hpl
  have ho' : ∀ e ∈ s.relocs, Ordinary e.2 := by rw [hs]; simpa using ho
  have hfault : ∀ x, Fault (labelRelative d.sy s.labels) s.bytes.length (a, r) x →
      x = .notInBitRange ∧ ¬ (-(2 ^ (r.bitsSize - 1)) ≤ l.org + l.base - r.relative ∧ l.org + l.base - r.relative < 2 ^ (r.bitsSize - 1)) := by
    intro x hx
    cases hx with
    | expr h => rw [hpl, hpl] at h; simp at h
    | unknown h => rw [hpl] at h; simp at h
    | misaligned h h' => rw [hpl] at h; simp at h; subst h; exact absurd hal h'
    | negative _ h _ => exact absurd h hrel
    | tooWide h h' =>
      rw [hpl] at h
      simp only [Except.ok.injEq, Option.some.injEq] at h
      subst h
      unfold RefRange at h'
      rw [if_pos hrel] at h'
      exact ⟨rfl, h'⟩
    | noField _ h _ => rw [hbits] at h; simp at h
    | outside _ h => omega
  by_cases hr : -(2 ^ (r.bitsSize - 1)) ≤ l.org + l.base - r.relative ∧ l.org + l.base - r.relative < 2 ^ (r.bitsSize - 1)
  · rw [if_pos hr, C38_success d hp s ho', hs]
    intro e he x hx
    simp only [List.mem_singleton] at he
    subst he
    exact (hfault x hx).2 hr
  · rw [if_neg hr]
    refine C38_exact d hp s ho' _ ⟨(a, r), by simp [hs], .tooWide (hpl _) ?_⟩ ?_
    · unfold RefRange; rw [if_pos hrel]; exact hr
    · intro e he y hy
      rw [hs] at he
      simp only [List.mem_singleton] at he
      subst he
      exact (hfault y hy).1

/-! ## C39 -/

/-- C39: the order of the references does not matter. -/
theorem C39_order (d : Dialect) (k : LinkerKind) (hp : d.postLink = pure ()) (s s' : St) (u : Unit)
    (h : link d k s = (.ok u, s')) (hh : ∀ e ∈ s.relocs, e.2.hook = none) (rs : List (Nat × Reloc))
    (hperm : s.relocs.Perm rs) : link d k { s with relocs := rs } = (.ok (), { s' with relocs := rs }) := by
  rw [link_resolve d k hp] at h ⊢
  obtain ⟨hok, rfl⟩ := resolveLabels_ok d k s s' u hh h
  unfold resolveLabels
  rw [bind_eq, get_eq]
  simp only
  rw [resolveAll_ok d k rs (fun e he => hh e (hperm.mem_iff.2 he)) { s with relocs := rs } (fun e he => hok e (hperm.mem_iff.2 he))]
  simp only
  rw [orBytes_congr]
  intro j
  unfold linkMask
  exact orAll_perm (hperm.map _).symm

/-- C39: if one order fails, so does every other. -/
theorem C39_order_fails (d : Dialect) (k : LinkerKind) (hp : d.postLink = pure ()) (s : St) (x : Err)
    (h : (link d k s).1 = .error x) (hh : ∀ e ∈ s.relocs, e.2.hook = none) (rs : List (Nat × Reloc))
    (hperm : s.relocs.Perm rs) : ∃ y, (link d k { s with relocs := rs }).1 = .error y := by
  cases hl : link d k { s with relocs := rs } with
  | mk r s' =>
    cases r with
    | error y => exact ⟨y, rfl⟩
    | ok u =>
      have := C39_order d k hp { s with relocs := rs } s' u hl (fun e he => hh e (hperm.mem_iff.2 he)) s.relocs hperm.symm
      simp only at this
      rw [this] at h
      cases h

/-- C39: linking again changes nothing. -/
theorem C39_idempotent (d : Dialect) (k : LinkerKind) (hp : d.postLink = pure ()) (s s' : St) (u : Unit)
    (h : link d k s = (.ok u, s')) (hh : ∀ e ∈ s.relocs, e.2.hook = none) : link d k s' = (.ok (), s') := by
  rw [link_resolve d k hp] at h ⊢
  obtain ⟨hok, rfl⟩ := resolveLabels_ok d k s s' u hh h
  unfold resolveLabels
  rw [bind_eq, get_eq]
  simp only
  rw [resolveAll_ok d k s.relocs hh _ (by simpa using hok)]
  simp only [orBytes_orBytes, BitVec.or_self]

/-! ## a concrete table

Six bytes; an absolute word for `here`, a relative byte for `there` (3 bytes before its
start), and a 12-bit field inside a big opcode. -/

/-- A reference into bits 11…0 of a two-byte instruction, counted in words. -/
def exField : Reloc := { label := "here".toList, size := 2, bitsSize := 13, alignment := 2, bits := some (11, 0), filter := some fun x => x / 2 }

def exLink : St :=
  { bytes := [0#8, 0#8, 0x90#8, 0#8, 0x00#8, 0xA0#8]
    labels := [("here".toList, ⟨4, 0x1000, none⟩), ("there".toList, ⟨1, 0x1000, none⟩)]
    relocs := [(0, { label := "here".toList, size := 2, bitsSize := 16 }),
      (3, { label := "there".toList, size := 1, bitsSize := 8, relative := 0x1004 }), (4, exField)] }

theorem exLink_ordinary : ∀ e ∈ exLink.relocs, Ordinary e.2 := by
  intro e he
  simp only [exLink, List.mem_cons, List.not_mem_nil, or_false] at he
  rcases he with rfl | rfl | rfl <;> exact ⟨by decide, by decide, rfl⟩

theorem exLink_hooks : ∀ e ∈ exLink.relocs, e.2.hook = none := fun e he => (exLink_ordinary e he).hook

theorem pair_ok {α β : Type} {p : α × β} {a : α} (h : p.1 = a) : p = (a, p.2) := by
  cases p; cases h; rfl

theorem exLink_ok : link {} .dummy exLink = (.ok (), (link {} .dummy exLink).2) := pair_ok (by decide +kernel)

/-- `here` is 0x1004, `there` is 3 bytes before 0x1004 and the field holds 0x802. -/
example : (link {} .dummy exLink).2.bytes = [0x04#8, 0x10#8, 0x90#8, 0xFD#8, 0x02#8, 0xA8#8] := by decide +kernel

example := C36_windows {} .dummy rfl exLink exLink_hooks
example := (C38_success {} rfl exLink exLink_ordinary).1 (by decide +kernel)

/-- The absolute word. -/
example : labelRelative {} exLink.labels "here".toList 0 =
    .ok (some ((ofBytes false (window (link {} .dummy exLink).2.bytes 0 2) : Nat) : Int)) :=
  C37_absolute {} rfl exLink _ () exLink_ok exLink_ordinary [] _ 0 _ rfl
    (by intro f hf j; simp only [List.nil_append, List.mem_cons, List.not_mem_nil, or_false] at hf
        rcases hf with rfl | rfl <;> simp only [Covers, exField] <;> omega)
    rfl rfl rfl (by decide) (by decide +kernel)

/-- The relative byte. -/
example : ∃ l disp, exLink.labels.lookup "there".toList = some l ∧
    disp = toSigned 8 (ofBytes false (window (link {} .dummy exLink).2.bytes 3 1)) ∧ 0x1004 + disp = l.org + l.base ∧
    -(2 ^ 7) ≤ disp ∧ disp < 2 ^ 7 :=
  C40_reaches {} rfl exLink _ () exLink_ok exLink_ordinary [_] [_] 3 _ rfl
    (by intro f hf j; simp only [List.cons_append, List.nil_append, List.mem_cons, List.not_mem_nil, or_false] at hf
        rcases hf with rfl | rfl <;> simp only [Covers, exField] <;> omega)
    (by decide) rfl rfl (by decide) (by decide +kernel) (by decide) (by decide)

/-- The field: bits 15…12 keep the opcode. -/
example := C37_field {} rfl exLink _ () exLink_ok exLink_ordinary [_, _] [] 4 exField rfl
    (by intro f hf j; simp only [List.cons_append, List.nil_append, List.append_nil, List.mem_cons, List.not_mem_nil, or_false] at hf
        rcases hf with rfl | rfl <;> simp only [Covers, exField] <;> omega)
    11 0 rfl (by decide) (by decide)

example := C39_order {} .dummy rfl exLink _ () exLink_ok exLink_hooks exLink.relocs.reverse (List.reverse_perm _).symm
example := C39_idempotent {} .dummy rfl exLink _ () exLink_ok exLink_hooks

/-- One reference of each faulty kind. -/
def exBad (r : Reloc) : St := { exLink with relocs := [(0, r)] }

example : (link {} .dummy (exBad { label := "nope".toList, size := 2, bitsSize := 16 })).1 = .error (.unknownLabel "nope".toList) ∧
    (link {} .dummy (exBad { label := "there".toList, size := 2, bitsSize := 16, alignment := 2 })).1 =
      .error (.alignmentError "there".toList) ∧
    (link {} .dummy (exBad { label := "here-here-1".toList, size := 2, bitsSize := 16 })).1 =
      .error (.onlyForwardAddressesAllowed "here-here-1".toList) ∧
    (link {} .dummy (exBad { label := "here".toList, size := 1, bitsSize := 8 })).1 = .error .notInBitRange ∧
    (link {} .dummy (exBad { label := "here".toList, size := 1, bitsSize := 8, relative := 0x0F84 })).1 = .error .notInBitRange ∧
    (link {} .dummy (exBad { label := "here".toList, size := 1, bitsSize := 8, relative := 0x0F85 })).1 = .ok () ∧
    (link {} .dummy (exBad { label := "here".toList, size := 2, bitsSize := 16, bits := some (7, 0) })).1 = .error .invalidBitRange ∧
    (link {} .dummy (exBad { label := "here".toList, size := 8, bitsSize := 16 })).1 = .error .indexError := by
  decide +kernel

/-- The conditions of `C38_exact`: everything wrong with the table is that `nope` is not
defined. -/
example : (link {} .dummy (exBad { label := "nope".toList, size := 2, bitsSize := 16 })).1 = .error (.unknownLabel "nope".toList) := by
  have ho : ∀ e ∈ (exBad { label := "nope".toList, size := 2, bitsSize := 16 }).relocs, Ordinary e.2 := by
    intro e he
    simp only [exBad, List.mem_cons, List.not_mem_nil, or_false] at he
    subst he
    exact ⟨by decide, by decide, rfl⟩
  refine C38_exact {} rfl _ ho _ ⟨_, List.mem_cons_self .., .unknown (by decide +kernel)⟩ ?_
  intro e he y hy
  simp only [exBad, List.mem_cons, List.not_mem_nil, or_false] at he
  subst he
  have hv : ∀ st, labelRelative {} exLink.labels "nope".toList st = .ok none := by
    intro st
    rw [plain_value _ _ _ (by decide) (by decide), show exLink.labels.lookup "nope".toList = none by decide +kernel]
    rfl
  generalize hr : ({ label := "nope".toList, size := 2, bitsSize := 16 } : Reloc) = r at hy
  have hlab : r.label = "nope".toList := by rw [← hr]
  have hsz : r.size = 2 := by rw [← hr]
  have hv' : ∀ st, labelRelative ({} : Dialect).sy (exBad r).labels r.label st = .ok none := by
    intro st; rw [hlab]; exact hv st
  cases hy with
  | expr h => rcases h with h | h <;> (rw [hv'] at h; cases h)
  | unknown _ => rw [hlab]
  | misaligned h _ => rw [hv'] at h; cases h
  | negative h _ _ => rw [hv'] at h; cases h
  | tooWide h _ => rw [hv'] at h; cases h
  | noField h _ _ => rw [hv'] at h; cases h
  | outside _ h => rw [hsz] at h; exact absurd h (show ¬ (6 : Nat) < 0 + 2 by decide)

/-- A relative reference at the edge of its range. -/
example (start : Int) (h0 : start ≠ 0) : (link {} .dummy { exLink with relocs := [(3, { label := "here".toList, size := 1, bitsSize := 8, relative := start })] }).1 =
    if -(2 ^ 7) ≤ (0x1000 + 4 : Int) - start ∧ (0x1000 + 4 : Int) - start < 2 ^ 7 then .ok () else .error .notInBitRange :=
  C40_rejected {} rfl _ 3 { label := "here".toList, size := 1, bitsSize := 8, relative := start } ⟨4, 0x1000, none⟩
    ⟨show 1 ≤ 8 by decide, show 1 ≠ 0 by decide, rfl⟩ h0 rfl (show (0x1000 + 4 : Int) % ((1 : Nat) : Int) = 0 by decide)
    (show "here".toList ≠ [] by decide) (show ∀ c ∈ "here".toList, formulaChar c = false by decide)
    (show exLink.labels.lookup "here".toList = _ by decide +kernel) rfl (show 3 + 1 ≤ 6 by decide)

end Necro
