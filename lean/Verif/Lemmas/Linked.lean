import Verif.Props.Link
import Verif.Props.References
import Verif.Lemmas.Word
/-!
# From the reference an instruction records to the bytes in the linked output
-/

namespace Necro
open Spec

/-- The reference `r` of an instruction whose bytes `blob` start at position `a` of the output
of `s`, seen from a later state. -/
structure Recorded (s : St) (a : Nat) (blob : Bytes) (r : Reloc) : Prop where
  code : window s.bytes a blob.length = blob
  entry : s.relocs.lookup (a + r.offset) = some r
  inside : r.offset + r.size ≤ blob.length

theorem window_of_prefix {x y : Bytes} {a n : Nat} (h : x <+: y) (hn : a + n ≤ x.length) : window y a n = window x a n := by
  obtain ⟨z, rfl⟩ := h
  unfold window
  rw [List.drop_append, List.take_append]
  have : n - (x.drop a).length = 0 := by simp; omega
  rw [this]; simp

theorem window_of_kept {s s' : St} {b a n : Nat} (h : Kept b s s') (ha : b ≤ a) (hn : a + n ≤ s.bytes.length) :
    window s'.bytes a n = window s.bytes a n := by
  apply List.ext_getElem?
  intro i
  simp only [window, List.getElem?_take, List.getElem?_drop]
  split
  · exact h.bytes _ (by omega) (by omega)
  · rfl

theorem recorded_of {s1 s2 : St} {pre blob : Bytes} {r : Reloc} (hb : s1.bytes = pre ++ blob)
    (he : s1.relocs.lookup (pre.length + r.offset) = some r) (hin : r.offset + r.size ≤ blob.length) (hs : 0 < r.size)
    (hl : Kept pre.length s1 s2) : Recorded s2 pre.length blob r where
  code := by
    rw [window_of_kept hl (Nat.le_refl _) (by rw [hb]; simp), hb]
    simp [window]
  entry := by rw [hl.refs _ (Nat.le_add_right _ _) (by rw [hb]; simp; omega), he]
  inside := hin

theorem window_window {x : Bytes} {a n o k : Nat} (h : o + k ≤ n) : window (window x a n) o k = window x (a + o) k := by
  unfold window
  rw [List.drop_take, List.drop_drop, List.take_take]
  congr 1; omega

theorem lookup_split {l : List (Nat × Reloc)} {a : Nat} {r : Reloc} (h : l.lookup a = some r) (hn : (l.map Prod.fst).Nodup) :
    ∃ pre post, l = pre ++ (a, r) :: post ∧ ∀ f ∈ pre ++ post, f ∈ l ∧ f.1 ≠ a := by
  rw [← dget_eq_lookup_nat] at h
  obtain ⟨pre, post, rfl⟩ := List.append_of_mem (mem_of_dget h)
  refine ⟨pre, post, rfl, fun f hf => ⟨?_, ?_⟩⟩
  · simp only [List.mem_append, List.mem_cons] at hf ⊢
    rcases hf with h | h
    · exact .inl h
    · exact .inr (.inr h)
  · rintro rfl
    simp only [List.map_append, List.map_cons, List.nodup_append, List.nodup_cons, List.mem_cons] at hn
    obtain ⟨h1, ⟨h2, h3⟩, h4⟩ := hn
    rcases List.mem_append.1 hf with h | h
    · exact h4 _ (List.mem_map_of_mem h) _ (.inl rfl) rfl
    · exact h2 (List.mem_map_of_mem h)

/-- A relative reference to a plain label in a linked program reaches it. -/
theorem relative_reaches {d : Dialect} (hp : d.postLink = pure ()) {s s' : St} (h : link d .dummy s = (.ok (), s'))
    (ho : ∀ e ∈ s.relocs, Ordinary e.2) (hn : (s.relocs.map Prod.fst).Nodup) {a : Nat} {blob : Bytes} {r : Reloc}
    (hr : Recorded s a blob r) (hap : ∀ f ∈ s.relocs, f.1 ≠ a + r.offset → Apart (a + r.offset, r) f)
    (hrel : r.relative ≠ 0) (hfil : r.filter = none) (hbits : r.bits = none) (hsize : r.bitsSize ≤ 8 * r.size)
    (hzero : ofBytes d.bigEndian (window blob r.offset r.size) = 0)
    (hne : r.label ≠ []) (hch : ∀ c ∈ r.label, formulaChar c = false) :
    ∃ l disp, s.labels.lookup r.label = some l ∧
      disp = toSigned (8 * r.size) (ofBytes d.bigEndian (window s'.bytes (a + r.offset) r.size)) ∧
      r.relative + disp = l.org + l.base ∧ -(2 ^ (r.bitsSize - 1)) ≤ disp ∧ disp < 2 ^ (r.bitsSize - 1) := by
  obtain ⟨pre, post, hsp, hne'⟩ := lookup_split hr.entry hn
  refine C40_reaches d hp s s' () h ho pre post (a + r.offset) r hsp (fun f hf => hap f (hne' f hf).1 (hne' f hf).2)
    hrel hfil hbits hsize ?_ hne hch
  rw [← hr.code, window_window hr.inside] at hzero
  exact hzero

/-- Bytes of the instruction outside every reference stay. -/
theorem linked_code {d : Dialect} (hp : d.postLink = pure ()) {s s' : St} (h : link d .dummy s = (.ok (), s'))
    (ho : ∀ e ∈ s.relocs, Ordinary e.2) {a : Nat} {blob : Bytes} {r : Reloc} (hr : Recorded s a blob r) {j : Nat} {b : Byte}
    (hj : blob[j]? = some b) (hc : ∀ e ∈ s.relocs, ¬ Covers e (a + j)) : s'.bytes[a + j]? = some b := by
  have := (C36_windows d .dummy hp s (fun e he => (ho e he).hook)).2.1 (a + j) hc
  rw [h] at this
  simp only at this
  rw [this, ← hj, ← hr.code]
  have hlt : j < blob.length := by
    rcases Nat.lt_or_ge j blob.length with h | h
    · exact h
    · rw [List.getElem?_eq_none h] at hj; cases hj
  simp only [window, List.getElem?_take, List.getElem?_drop]
  rw [if_pos]
  have hl : (window s.bytes a blob.length).length = blob.length := by rw [hr.code]
  simpa [window, hr.code] using hlt

/-- Linking succeeds when the distance fits and nothing is wrong with the other references. -/
theorem relative_accepted {d : Dialect} (hp : d.postLink = pure ()) {s : St}
    (ho : ∀ e ∈ s.relocs, Ordinary e.2) {a : Nat} {blob : Bytes} {r : Reloc} {l : LabelInfo} (hr : Recorded s a blob r)
    (hrel : r.relative ≠ 0) (hbits : r.bits = none) (hal : (l.org + l.base) % (r.alignment : Int) = 0)
    (hne : r.label ≠ []) (hch : ∀ c ∈ r.label, formulaChar c = false) (hl : s.labels.lookup r.label = some l)
    (hrg : -(2 ^ (r.bitsSize - 1)) ≤ l.org + l.base - r.relative ∧ l.org + l.base - r.relative < 2 ^ (r.bitsSize - 1))
    (hothers : ∀ e ∈ s.relocs, e ≠ (a + r.offset, r) → ∀ x, ¬ Fault (labelRelative d.sy s.labels) s.bytes.length e x) :
    (link d .dummy s).1 = .ok () := by
  rw [C38_success d hp s ho]
  intro e he x
  by_cases hee : e = (a + r.offset, r)
  · subst hee
    have hpl := fun st => plain_value d.sy s.labels r.label hne hch st
    simp only [hl, Option.map_some] at hpl
    intro hx
    cases hx with
    | expr h => rw [hpl, hpl] at h; simp at h
    | unknown h => rw [hpl] at h; simp at h
    | misaligned h h' => rw [hpl] at h; simp at h; subst h; exact absurd hal h'
    | negative h h' _ => exact absurd h' hrel
    | tooWide h h' =>
      rw [hpl] at h; simp at h; subst h
      exact h' (by unfold RefRange; rw [if_pos hrel]; exact hrg)
    | noField _ h' _ => rw [hbits] at h'; cases h'
    | outside h0 h' =>
      have hlen : (window s.bytes a blob.length).length = blob.length := by rw [hr.code]
      have := hr.inside
      simp only [window, List.length_take, List.length_drop] at hlen
      omega
  · exact hothers e he hee x

/-! ## instructions in a program -/

/-- The reference of an instruction is found again later. -/
theorem Spec.InProgram.recorded {d : Dialect} {s s' : St} {t : Str} {rest : List Str} {blob : Bytes} {r : Reloc}
    (h : InProgram d s t rest s') (he : Emits d (ctxOf d s) t rest blob [r]) (hin : r.offset + r.size ≤ blob.length) (hs : 0 < r.size) :
    Recorded s' s.bytes.length blob r := by
  cases h with
  | mk hrec hsub hmac hrun hlater =>
    obtain ⟨hb, hl, -⟩ := C54_instruction d _ _ _ s _ hrec t _ hsub hmac _ _ he hrun
    exact recorded_of hb hl hin hs hlater

theorem bit_nat_high {w n i : Nat} (hw : w < 2 ^ n) (hi : n ≤ i) : bit (w : Int) i = false := by
  rw [bit_natCast]
  exact Nat.testBit_lt_two_pow (Nat.lt_of_lt_of_le hw (Nat.pow_le_pow_right (by decide) hi))

/-- A reference to a plain label, declared for a bit field that the instruction leaves clear: the
linked word is the instruction's own plus the converted value in the field. -/
theorem field_linked {d : Dialect} (hp : d.postLink = pure ()) {s s' : St} {a : Nat} {blob : Bytes} {r : Reloc}
    (h : LinksAlone d s s' (a + r.offset) r) (hr : Recorded s a blob r) {hi lo : Nat} (hbits : r.bits = some (hi, lo))
    (hlo : lo ≤ hi) (hhi : hi < 8 * r.size)
    (hclear : ofBytes d.bigEndian (window blob r.offset r.size) / 2 ^ lo % 2 ^ (hi - lo + 1) = 0)
    (hne : r.label ≠ []) (hch : ∀ c ∈ r.label, formulaChar c = false) :
    ∃ l, s.labels.lookup r.label = some l ∧ RefRange r (l.org + l.base - r.relative) ∧ (r.relative = 0 → 0 ≤ l.org + l.base) ∧
      (l.org + l.base) % (r.alignment : Int) = 0 ∧
      ((ofBytes d.bigEndian (window s'.bytes (a + r.offset) r.size) : Nat) : Int) =
        ofBytes d.bigEndian (window blob r.offset r.size) + fieldPart ⟨hi, lo, converted r (l.org + l.base - r.relative)⟩ := by
  obtain ⟨pre, post, hsp, hne'⟩ := lookup_split hr.entry h.nodup
  obtain ⟨addr, t, v, h0, h1, hal, hneg, hrg, hpat, hb⟩ := C37_bits d hp s s' () h.ok h.ordinary pre post (a + r.offset) r hsp
    (fun f hf => h.apart f (hne' f hf).1 (hne' f hf).2)
  rw [plain_value d.sy s.labels r.label hne hch] at h0 h1
  cases hl : s.labels.lookup r.label with
  | none => rw [hl] at h0; simp at h0
  | some l =>
    rw [hl] at h0 h1
    simp only [Option.map_some, Except.ok.injEq, Option.some.injEq, Int.sub_zero] at h0 h1
    subst h0; subst h1
    refine ⟨l, rfl, hrg, fun hz => by have := hneg hz; rw [hz] at this; omega, hal, ?_⟩
    have hv : ∀ i, bit v i = (decide (lo ≤ i ∧ i ≤ hi) && bit (converted r (l.org + l.base - r.relative)) (i - lo)) := by
      simpa only [Pattern, hbits] using hpat
    have hwin : window s.bytes (a + r.offset) r.size = window blob r.offset r.size := by
      rw [← window_window hr.inside, hr.code]
    rw [hwin] at hb
    have hbf := bit_fieldPart ⟨hi, lo, converted r (l.org + l.base - r.relative)⟩ hlo
    have hcl : ∀ i, lo ≤ i → i ≤ hi → bit ((ofBytes d.bigEndian (window blob r.offset r.size) : Nat) : Int) i = false := by
      intro i h1 h2
      have : bit ((ofBytes d.bigEndian (window blob r.offset r.size) / 2 ^ lo % 2 ^ (hi - lo + 1) : Nat) : Int) (i - lo) = false := by
        rw [hclear]; simp [bit]
      rw [bit_natCast, Nat.testBit_mod_two_pow, Nat.testBit_div_two_pow] at this
      rw [bit_natCast]
      have h3 : i - lo < hi - lo + 1 := by omega
      rw [show i - lo + lo = i from by omega] at this
      simpa [h3] using this
    rw [← pyOr_eq_add (Int.natCast_nonneg _) (fieldPart_nonneg _)]
    · apply bit_ext
      intro i
      rw [bit_pyOr, hbf]
      by_cases hlt : i < 8 * r.size
      · rw [hb i hlt, hv]
      · have hlen : (window s'.bytes (a + r.offset) r.size).length ≤ r.size := by simp [window]; omega
        have hlen' : (window blob r.offset r.size).length ≤ r.size := by simp [window]; omega
        rw [bit_nat_high (Nat.lt_of_lt_of_le (ofBytes_lt _ _) (Nat.pow_le_pow_right (by decide) (Nat.mul_le_mul_left 8 hlen))) (by omega),
          bit_nat_high (Nat.lt_of_lt_of_le (ofBytes_lt _ _) (Nat.pow_le_pow_right (by decide) (Nat.mul_le_mul_left 8 hlen'))) (by omega)]
        have : ¬ i ≤ hi := by omega
        simp [this]
    · intro i hi'
      rw [hbf] at hi'
      obtain ⟨h1, h2⟩ := hi'
      simp only [Bool.and_eq_true, decide_eq_true_eq] at h2
      rw [hcl i h2.1.1 h2.1.2] at h1
      cases h1

/-- What stops a reference to a plain label from linking. -/
theorem plain_fault {d : Dialect} {s : St} {a : Nat} {blob : Bytes} {r : Reloc} {l : LabelInfo} (hr : Recorded s a blob r)
    (hne : r.label ≠ []) (hch : ∀ c ∈ r.label, formulaChar c = false) (hl : s.labels.lookup r.label = some l)
    (hal : (l.org + l.base) % (r.alignment : Int) = 0) (hneg : r.relative = 0 → 0 ≤ l.org + l.base)
    (hrg : RefRange r (l.org + l.base - r.relative))
    (hfld : ∀ hi lo, r.bits = some (hi, lo) → FieldOk ⟨hi, lo, converted r (l.org + l.base - r.relative)⟩)
    (x : Err) : ¬ Fault (labelRelative d.sy s.labels) s.bytes.length (a + r.offset, r) x := by
  have hpl := fun st => plain_value d.sy s.labels r.label hne hch st
  simp only [hl, Option.map_some] at hpl
  intro hx
  cases hx with
  | expr h => rw [hpl, hpl] at h; simp at h
  | unknown h => rw [hpl] at h; simp at h
  | misaligned h h' => rw [hpl] at h; simp at h; subst h; exact absurd hal h'
  | negative h h' h2 => rw [hpl] at h; simp at h; subst h; have := hneg h'; omega
  | tooWide h h' => rw [hpl] at h; simp at h; subst h; exact h' hrg
  | noField h h' h2 => rw [hpl] at h; simp at h; subst h; exact h2 (hfld _ _ h')
  | outside h0 h' =>
    have hlen : (window s.bytes a blob.length).length = blob.length := by rw [hr.code]
    have := hr.inside
    simp only [window, List.length_take, List.length_drop] at hlen
    omega

/-- Linking fails when the value does not fit. -/
theorem plain_rejected {d : Dialect} (hp : d.postLink = pure ()) {s : St} {a : Nat} {blob : Bytes} {r : Reloc} {l : LabelInfo}
    (ho : ∀ e ∈ s.relocs, Ordinary e.2) (hr : Recorded s a blob r)
    (hne : r.label ≠ []) (hch : ∀ c ∈ r.label, formulaChar c = false) (hl : s.labels.lookup r.label = some l)
    (hbad : ¬ RefRange r (l.org + l.base - r.relative)) : (link d .dummy s).1 ≠ .ok () := by
  intro hok
  rw [C38_success d hp s ho] at hok
  have hmem := mem_of_dget ((dget_eq_lookup_nat _ _).trans hr.entry)
  refine hok _ hmem .notInBitRange (.tooWide (v := l.org + l.base - r.relative) ?_ hbad)
  have := plain_value d.sy s.labels r.label hne hch r.relative
  rw [hl] at this
  exact this

theorem plain_negative {d : Dialect} (hp : d.postLink = pure ()) {s : St} {a : Nat} {blob : Bytes} {r : Reloc} {l : LabelInfo}
    (ho : ∀ e ∈ s.relocs, Ordinary e.2) (hr : Recorded s a blob r)
    (hne : r.label ≠ []) (hch : ∀ c ∈ r.label, formulaChar c = false) (hl : s.labels.lookup r.label = some l)
    (hrel : r.relative = 0) (hbad : l.org + l.base < 0) : (link d .dummy s).1 ≠ .ok () := by
  intro hok
  rw [C38_success d hp s ho] at hok
  have hmem := mem_of_dget ((dget_eq_lookup_nat _ _).trans hr.entry)
  refine hok _ hmem _ (.negative (addr := l.org + l.base) ?_ hrel hbad)
  have := plain_value d.sy s.labels r.label hne hch 0
  rw [hl] at this
  simpa using this

/-! ## small programs -/

/-- A program with a single reference. -/
theorem Spec.LinksAlone.single {d : Dialect} {s s' : St} {a : Nat} {r : Reloc} (h : link d .dummy s = (.ok (), s'))
    (hr : s.relocs = [(a, r)]) (ho : Ordinary r) : LinksAlone d s s' a r where
  ok := h
  ordinary := by intro e he; rw [hr] at he; cases List.mem_singleton.1 he; exact ho
  nodup := by rw [hr]; simp
  apart := by intro e he hne; rw [hr] at he; cases List.mem_singleton.1 he; exact absurd rfl hne

/-- A program that ends with the instruction. -/
theorem Spec.InProgram.last {d : Dialect} {s : St} {t : Str} {rest : List Str} {blob : Bytes} {rels : List Reloc}
    (hr : s.recording = none) (hsub : substituteWithDict (t :: rest) s.defines 0 = t :: rest) (hm : s.macros = []) (he : Emits d (ctxOf d s) t rest blob rels) :
    InProgram d s t rest (emitted s blob rels) := by
  have hmac : s.macros.lookup (d.key t) = none := by rw [hm]; rfl
  exact .mk (depth := 0) (ln := 0) hr hsub hmac ((execInstr_emits d 0 _ 0 s _ hr t rest hsub hmac).2 ⟨_, _, he, rfl⟩) (Later.kept (.same rfl rfl rfl) _)

end Necro
