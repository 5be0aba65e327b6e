import Verif.Lemmas.Replaced
import Verif.Props.ThumbLink
/-!
# The bytes of a linked instruction with several references
-/

namespace Necro
open Spec

/-- The bytes of an instruction are still there when the program is finished. -/
theorem Spec.InProgram.code {d : Dialect} {s s' : St} {t : Str} {rest : List Str} {blob : Bytes} {rels : List Reloc}
    (h : InProgram d s t rest s') (he : Emits d (ctxOf d s) t rest blob rels) : window s'.bytes s.bytes.length blob.length = blob := by
  cases h with
  | mk hrec hsub hmac hrun hlater =>
    obtain ⟨b', r', he', rfl⟩ := (execInstr_emits d _ _ _ s _ hrec t rest hsub hmac).1 hrun
    obtain ⟨rfl, rfl⟩ := Emits.unique he he'
    have hb : (emitted s blob rels).bytes = s.bytes ++ blob := rfl
    rw [window_of_kept hlater (Nat.le_refl _) (by rw [hb]; simp), hb]
    simp [window]

theorem window_add (bs : Bytes) (a m n : Nat) : window bs a (m + n) = window bs a m ++ window bs (a + m) n := by
  unfold window
  rw [List.take_add, List.drop_drop]

theorem code_length {s : St} {a : Nat} {blob : Bytes} (hcode : window s.bytes a blob.length = blob) (h : 0 < blob.length) :
    a + blob.length ≤ s.bytes.length := by
  have hx : (window s.bytes a blob.length).length = blob.length := by rw [hcode]
  simp only [window, List.length_take, List.length_drop] at hx
  omega

/-- A part of the instruction outside its references stays. -/
theorem own_untouched {d : Dialect} (hp : d.postLink = pure ()) {s s' : St} {a : Nat} {blob : Bytes} {rels : List Reloc}
    (h : LinksOwn d s s' a blob.length rels) (hcode : window s.bytes a blob.length = blob) {o m : Nat} (hom : o + m ≤ blob.length)
    (hr : ∀ r ∈ rels, r.offset + r.size ≤ o ∨ o + m ≤ r.offset) : window s'.bytes (a + o) m = window blob o m := by
  apply List.ext_getElem?
  intro i
  rw [window_getElem?, window_getElem?]
  by_cases hi : i < m
  · rw [if_pos hi, if_pos hi]
    have := (C36_windows d .dummy hp s (fun e he => (h.ordinary e he).hook)).2.1 (a + o + i) (by
      intro e he hc
      obtain ⟨r, hrm, rfl⟩ := h.own e he (a + o + i) (by omega) (by omega) hc
      obtain ⟨h1, h2⟩ := hc
      simp only at h1 h2
      have := hr r hrm
      omega)
    rw [h.ok] at this
    simp only at this
    rw [this]
    conv => rhs; rw [← hcode]
    rw [window_getElem?, if_pos (by omega), Nat.add_assoc]
  · rw [if_neg hi, if_neg hi]

theorem own_alone {d : Dialect} {s s' : St} {a : Nat} {blob : Bytes} {rels : List Reloc} {r : Reloc}
    (h : LinksOwn d s s' a blob.length rels) (hR : Recorded s a blob r)
    (hd : ∀ x ∈ rels, x = r ∨ x.offset + x.size ≤ r.offset ∨ r.offset + r.size ≤ x.offset) : LinksAlone d s s' (a + r.offset) r where
  ok := h.ok
  ordinary := h.ordinary
  nodup := h.nodup
  apart := by
    intro f hf hne j hj
    obtain ⟨⟨h1, h2⟩, hc⟩ := hj
    simp only at h1 h2
    have := hR.inside
    obtain ⟨x, hx, rfl⟩ := h.own f hf j (by omega) (by omega) hc
    obtain ⟨h3, h4⟩ := hc
    simp only at h3 h4 hne
    rcases hd x hx with rfl | hd
    · exact hne rfl
    · omega

/-- Linking writes the value over a clear field. -/
theorem word_linked {d : Dialect} (hp : d.postLink = pure ()) {s s' : St} {a : Nat} {blob : Bytes} {r : Reloc}
    (h : LinksAlone d s s' (a + r.offset) r) (hr : Recorded s a blob r) (hbits : r.bits = none)
    (hzero : ofBytes d.bigEndian (window blob r.offset r.size) = 0)
    (hne : r.label ≠ []) (hch : ∀ c ∈ r.label, formulaChar c = false) :
    ∃ l, s.labels.lookup r.label = some l ∧ RefRange r (l.org + l.base - r.relative) ∧ (r.relative = 0 → 0 ≤ l.org + l.base) ∧
      (l.org + l.base) % (r.alignment : Int) = 0 ∧
      window s'.bytes (a + r.offset) r.size = wordBytes d.bigEndian r.size (converted r (l.org + l.base - r.relative)) := by
  obtain ⟨pre, post, hsp, hne'⟩ := lookup_split hr.entry h.nodup
  have hin := hr.inside
  obtain ⟨addr, t, v, h0, h1, hal, hneg, hrg, hpat, hb⟩ := C37_bits d hp s s' () h.ok h.ordinary pre post (a + r.offset) r hsp
    (fun f hf => h.apart f (hne' f hf).1 (hne' f hf).2)
  rw [plain_value d.sy s.labels r.label hne hch] at h0 h1
  cases hl : s.labels.lookup r.label with
  | none => rw [hl] at h0; simp at h0
  | some l =>
    rw [hl] at h0 h1
    simp only [Option.map_some, Except.ok.injEq, Option.some.injEq, Int.sub_zero] at h0 h1
    subst h0; subst h1
    refine ⟨l, rfl, hrg, fun hz => by have := hneg hz; rw [hz] at this; omega, hal, ?_⟩
    have hv : v = converted r (l.org + l.base - r.relative) := by simpa only [Pattern, hbits] using hpat
    subst hv
    have hlen : s'.bytes.length = s.bytes.length := by
      have := (C36_windows d .dummy hp s (fun e he => (h.ordinary e he).hook)).1
      rw [h.ok] at this; exact this
    have hcl : a + blob.length ≤ s.bytes.length ∨ blob.length = 0 := by
      have hx : (window s.bytes a blob.length).length = blob.length := by rw [hr.code]
      simp only [window, List.length_take, List.length_drop] at hx
      omega
    have hwin : window s.bytes (a + r.offset) r.size = window blob r.offset r.size := by
      rw [← window_window hr.inside, hr.code]
    have hw := window_value d.bigEndian (window s'.bytes (a + r.offset) r.size) (converted r (l.org + l.base - r.relative)) r.size
      (window_length_le _ _ _) (by
        intro i hi
        rw [hb i hi, hwin, hzero]
        simp [bit_zero])
    apply ofBytes_inj d.bigEndian
    · rw [wordBytes_length]
      simp only [window, List.length_take, List.length_drop]
      omega
    · have := ofBytes_wordBytes d.bigEndian r.size (converted r (l.org + l.base - r.relative))
      rw [← hw] at this
      exact Int.ofNat_inj.1 this.symm

/-- When linking succeeds the label of a plain reference is there, aligned and in range. -/
theorem plain_linked {d : Dialect} (hp : d.postLink = pure ()) {s s' : St} {a : Nat} {blob : Bytes} {r : Reloc}
    (h : LinksAlone d s s' (a + r.offset) r) (hr : Recorded s a blob r) (hne : r.label ≠ []) (hch : ∀ c ∈ r.label, formulaChar c = false) :
    ∃ l, s.labels.lookup r.label = some l ∧ RefRange r (l.org + l.base - r.relative) ∧ (r.relative = 0 → 0 ≤ l.org + l.base) ∧
      (l.org + l.base) % (r.alignment : Int) = 0 := by
  obtain ⟨pre, post, hsp, hne'⟩ := lookup_split hr.entry h.nodup
  obtain ⟨addr, t, v, h0, h1, hal, hneg, hrg, -, -⟩ := C37_bits d hp s s' () h.ok h.ordinary pre post (a + r.offset) r hsp
    (fun f hf => h.apart f (hne' f hf).1 (hne' f hf).2)
  rw [plain_value d.sy s.labels r.label hne hch] at h0 h1
  cases hl : s.labels.lookup r.label with
  | none => rw [hl] at h0; simp at h0
  | some l =>
    rw [hl] at h0 h1
    simp only [Option.map_some, Except.ok.injEq, Option.some.injEq, Int.sub_zero] at h0 h1
    subst h0; subst h1
    exact ⟨l, rfl, hrg, fun hz => by have := hneg hz; rw [hz] at this; omega, hal⟩

/-- A program whose only references are those of the instruction. -/
theorem Spec.LinksOwn.only {d : Dialect} {s s' : St} {a n : Nat} {rels : List Reloc} (h : link d .dummy s = (.ok (), s'))
    (hr : s.relocs = rels.map fun r => (a + r.offset, r)) (ho : ∀ r ∈ rels, Ordinary r) (hn : (rels.map (·.offset)).Nodup) : LinksOwn d s s' a n rels where
  ok := h
  ordinary := by
    intro e he
    rw [hr] at he
    obtain ⟨r, hm, rfl⟩ := List.mem_map.1 he
    exact ho r hm
  nodup := by
    rw [hr, List.map_map]
    show (rels.map fun r => a + r.offset).Nodup
    have := hn
    rw [List.nodup_iff_pairwise_ne, List.pairwise_map] at this ⊢
    exact this.imp (fun h => by omega)
  own := by
    intro f hf j _ _ _
    rw [hr] at hf
    obtain ⟨r, hm, rfl⟩ := List.mem_map.1 hf
    exact ⟨r, hm, rfl⟩

end Necro
