import Verif.Lemmas.Linked
/-!
# The bytes of a linked instruction, operand and all
-/

namespace Necro
open Spec

theorem window_getElem? (bs : Bytes) (a n i : Nat) : (window bs a n)[i]? = if i < n then bs[a + i]? else none := by
  simp only [window, List.getElem?_take, List.getElem?_drop]

/-- An instruction with one reference to a plain label: in the linked output its field holds the value, its other
bytes are as they were. -/
theorem linked_instr {d : Dialect} (hp : d.postLink = pure ()) {s s' : St} {a : Nat} {blob : Bytes} {r : Reloc}
    (h : LinksClear d s s' a blob.length (a + r.offset)) (hr : Recorded s a blob r) (hbits : r.bits = none)
    (hzero : ofBytes d.bigEndian (window blob r.offset r.size) = 0)
    (hne : r.label ≠ []) (hch : ∀ c ∈ r.label, formulaChar c = false) :
    ∃ l, s.labels.lookup r.label = some l ∧ RefRange r (l.org + l.base - r.relative) ∧ (r.relative = 0 → 0 ≤ l.org + l.base) ∧
      (l.org + l.base) % (r.alignment : Int) = 0 ∧
      window s'.bytes a blob.length = blob.take r.offset ++ wordBytes d.bigEndian r.size (converted r (l.org + l.base - r.relative)) ++
        blob.drop (r.offset + r.size) := by
  obtain ⟨pre, post, hsp, hne'⟩ := lookup_split hr.entry h.nodup
  have hin := hr.inside
  obtain ⟨addr, t, v, h0, h1, hal, hneg, hrg, hpat, hb⟩ := C37_bits d hp s s' () h.ok h.ordinary pre post (a + r.offset) r hsp (by
    intro f hf j hj
    obtain ⟨⟨hj1, hj2⟩, hj3⟩ := hj
    simp only at hj1 hj2
    exact h.clear f (hne' f hf).1 (hne' f hf).2 j (by omega) (by omega) hj3)
  rw [plain_value d.sy s.labels r.label hne hch] at h0 h1
  cases hl : s.labels.lookup r.label with
  | none => rw [hl] at h0; simp at h0
  | some l =>
    rw [hl] at h0 h1
    simp only [Option.map_some, Except.ok.injEq, Option.some.injEq, Int.sub_zero] at h0 h1
    subst h0; subst h1
    refine ⟨l, rfl, hrg, fun hz => by have := hneg hz; rw [hz] at this; omega, hal, ?_⟩
    have hv : v = converted r (l.org + l.base - r.relative) := by simpa only [Pattern, hbits] using hpat
    subst hv
    have hlen : s'.bytes.length = s.bytes.length := by
      have := (C36_windows d .dummy hp s (fun e he => (h.ordinary e he).hook)).1
      rw [h.ok] at this; exact this
    have hcl : a + blob.length ≤ s.bytes.length ∨ blob.length = 0 := by
      have hx : (window s.bytes a blob.length).length = blob.length := by rw [hr.code]
      simp only [window, List.length_take, List.length_drop] at hx
      omega
    have hwin : window s.bytes (a + r.offset) r.size = window blob r.offset r.size := by
      rw [← window_window hr.inside, hr.code]
    have hw := window_value d.bigEndian (window s'.bytes (a + r.offset) r.size) (converted r (l.org + l.base - r.relative)) r.size
      (window_length_le _ _ _) (by
        intro i hi
        rw [hb i hi, hwin, hzero]
        simp [bit_zero])
    have hfield : window s'.bytes (a + r.offset) r.size = wordBytes d.bigEndian r.size (converted r (l.org + l.base - r.relative)) := by
      apply ofBytes_inj d.bigEndian
      · rw [wordBytes_length]
        simp only [window, List.length_take, List.length_drop]
        omega
      · have := ofBytes_wordBytes d.bigEndian r.size (converted r (l.org + l.base - r.relative))
        rw [← hw] at this
        exact Int.ofNat_inj.1 this.symm
    have hout : ∀ j, j < r.offset ∨ r.offset + r.size ≤ j → j < blob.length → s'.bytes[a + j]? = blob[j]? := by
      intro j hj hlt
      have := linked_code hp h.ok h.ordinary hr (j := j) (b := blob[j]) (List.getElem?_eq_getElem hlt) (by
        intro e he hc
        by_cases hee : e.1 = a + r.offset
        · have : e.2 = r := by
            have hlk := hr.entry
            rw [← dget_eq_lookup_nat] at hlk
            have := dget_of_mem (l := s.relocs) h.nodup (show (a + r.offset, e.2) ∈ s.relocs by rw [← hee]; exact he)
            rw [hlk] at this; exact (Option.some.inj this).symm
          obtain ⟨hc1, hc2⟩ := hc
          rw [hee] at hc1 hc2; rw [this] at hc2
          omega
        · exact h.clear e he hee (a + j) (by omega) (by omega) hc)
      rw [this, List.getElem?_eq_getElem hlt]
    rw [← hfield]
    apply List.ext_getElem?
    intro i
    rw [window_getElem?, List.append_assoc, List.getElem?_append, List.getElem?_append]
    have hwl : (window s'.bytes (a + r.offset) r.size).length = r.size := by rw [hfield, wordBytes_length]
    rw [hwl, List.length_take, Nat.min_eq_left (by omega)]
    by_cases h1 : i < r.offset
    · rw [if_pos (by omega), if_pos h1, List.getElem?_take, if_pos h1]
      exact hout i (.inl h1) (by omega)
    · rw [if_neg h1]
      by_cases h2 : i < r.offset + r.size
      · rw [if_pos (by omega), if_pos (by omega), window_getElem?, if_pos (by omega)]
        congr 1; omega
      · rw [if_neg (show ¬ i - r.offset < r.size by omega), List.getElem?_drop]
        rw [show r.offset + r.size + (i - r.offset - r.size) = i by omega]
        by_cases h3 : i < blob.length
        · rw [if_pos h3]; exact hout i (.inr (by omega)) h3
        · rw [if_neg h3, List.getElem?_eq_none (by omega)]

theorem Spec.LinksClear.single {d : Dialect} {s s' : St} {a n p : Nat} {r : Reloc} (h : link d .dummy s = (.ok (), s'))
    (hr : s.relocs = [(p, r)]) (ho : Ordinary r) : LinksClear d s s' a n p where
  ok := h
  ordinary := by intro e he; rw [hr] at he; cases List.mem_singleton.1 he; exact ho
  nodup := by rw [hr]; simp
  clear := by intro e he hne; rw [hr] at he; cases List.mem_singleton.1 he; exact absurd rfl hne

end Necro
