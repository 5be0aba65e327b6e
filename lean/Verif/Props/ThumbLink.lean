import Verif.Props.Thumb
import Verif.Props.Link
import Verif.Lemmas.Linked
/-!
# Thumb: branches, calls and loads from labels

C62, C63 and C64.
-/

namespace Necro
open Spec

/-! ## several references of one instruction -/

theorem addReloc_kept (l : List Reloc) : ∀ (s : St) (r : Reloc), (∀ x ∈ l, x.offset ≠ r.offset) →
    (l.foldl addReloc s).relocs.lookup (s.bytes.length + r.offset) = s.relocs.lookup (s.bytes.length + r.offset) := by
  induction l with
  | nil => intro s r _; rfl
  | cons x l ih =>
    intro s r h
    rw [List.foldl_cons]
    have := ih (addReloc s x) r (fun y hy => h y (by simp [hy]))
    rw [show (addReloc s x).bytes = s.bytes from rfl] at this
    rw [this, ← dget_eq_lookup_nat, ← dget_eq_lookup_nat]
    exact dget_dset_ne _ _ (by have := h x (by simp); omega)

theorem addReloc_all (l : List Reloc) : ∀ (s : St), (l.map (·.offset)).Nodup → ∀ r ∈ l,
    (l.foldl addReloc s).relocs.lookup (s.bytes.length + r.offset) = some r := by
  induction l with
  | nil => intro s _ r hr; cases hr
  | cons x l ih =>
    intro s hn r hr
    rw [List.foldl_cons]
    rw [List.map_cons, List.nodup_cons] at hn
    rcases List.mem_cons.1 hr with rfl | hr
    · have := addReloc_kept l (addReloc s r) r (fun y hy he => hn.1 (he ▸ List.mem_map_of_mem hy))
      rw [show (addReloc s r).bytes = s.bytes from rfl] at this
      rw [this, ← dget_eq_lookup_nat]
      exact dget_dset_self _ _ _
    · exact ih (addReloc s x) hn.2 r hr

/-- Each reference of an instruction is found at its own position. -/
theorem Spec.InProgram.recordedAll {d : Dialect} {s s' : St} {t : Str} {rest : List Str} {blob : Bytes} {rels : List Reloc}
    (h : InProgram d s t rest s') (he : Emits d (ctxOf d s) t rest blob rels) (hn : (rels.map (·.offset)).Nodup) {r : Reloc} (hr : r ∈ rels)
    (hin : r.offset + r.size ≤ blob.length) (hs : 0 < r.size) : Recorded s' s.bytes.length blob r := by
  cases h with
  | mk hrec hsub hmac hrun hlater =>
    obtain ⟨b', r', he', rfl⟩ := (execInstr_emits d _ _ _ s _ hrec t rest hsub hmac).1 hrun
    obtain ⟨rfl, rfl⟩ := Emits.unique he he'
    exact recorded_of (s1 := emitted s blob rels) rfl (addReloc_all rels s hn r hr) hin hs hlater

/-- Linking fills a clear low field of a halfword with the converted value. -/
theorem half_filled {s2 s3 : St} {a : Nat} {blob : Bytes} {r : Reloc} {k : Nat} (hR : Recorded s2 a blob r)
    (hlink : LinksAlone thumb s2 s3 (a + r.offset) r) (hk : k < 16) (hsize : r.size = 2) (hbits : r.bits = some (k, 0))
    (hclear : ofBytes false (window blob r.offset 2) % 2 ^ (k + 1) = 0)
    (hne : r.label ≠ []) (hplain : ∀ ch ∈ r.label, formulaChar ch = false) :
    ∃ l, s2.labels.lookup r.label = some l ∧ RefRange r (l.org + l.base - r.relative) ∧ (l.org + l.base) % (r.alignment : Int) = 0 ∧
      ofBytes false (window s3.bytes (a + r.offset) 2) =
        ofBytes false (window blob r.offset 2) + (converted r (l.org + l.base - r.relative) % 2 ^ (k + 1)).toNat := by
  obtain ⟨l, h1, hrg, -, hal, hw⟩ := field_linked (hi := k) (lo := 0) rfl hlink hR hbits (by omega) (by omega)
    (by rw [hsize]
        show ofBytes false _ / 2 ^ 0 % 2 ^ (k - 0 + 1) = 0
        simpa using hclear) hne hplain
  rw [hsize] at hw
  have hw : ((ofBytes false (window s3.bytes (a + r.offset) 2) : Nat) : Int) =
      (ofBytes false (window blob r.offset 2) : Nat) + (converted r (l.org + l.base - r.relative) % 2 ^ (k + 1)) * 2 ^ 0 := hw
  refine ⟨l, h1, hrg, hal, ?_⟩
  have h0 : 0 ≤ converted r (l.org + l.base - r.relative) % 2 ^ (k + 1) := Int.emod_nonneg _ (Int.ne_of_gt (Int.pow_pos (by decide)))
  generalize converted r (l.org + l.base - r.relative) % 2 ^ (k + 1) = y at *
  simp only [Int.pow_zero, Int.mul_one] at hw
  omega

/-! ## C62: branches -/

/-- The branch mnemonics. -/
def thBranches : List TOp := .B :: thCondNames

/-- The field of a branch has this many bits, less one. -/
def thReach (op : TOp) : Nat := if op = .B then 10 else 7

def thBranchForm (op : TOp) : ThForm :=
  if op = .B then ⟨[.offset 10], 0xE000, [⟨10, 0, .val 0 1⟩], false⟩ else thCond (thCondNames.findIdx (· == op))

def thBranchWord (op : TOp) : Nat := if op = .B then 0xE000 else 0xD000 + thCondNames.findIdx (· == op) * 256

theorem branch_form : ∀ op ∈ thBranches, (op.name, [thBranchForm op]) ∈ thTable ∧ (thBranchForm op).ops = [.offset (thReach op)] ∧
    (thBranchForm op).bad = false ∧
    packBitsLe16u (thBranchForm op).base ((thBranchForm op).fields.map (ThField.bits [0])) = .ok (wordBytes false 2 (thBranchWord op)) := by
  decide +kernel

theorem branch_decode : ∀ op ∈ thBranches, thBranchWord op < 2 ^ 16 ∧ thBranchWord op % 2 ^ (thReach op + 1) = 0 ∧
    ((List.range (2 ^ (thReach op + 1))).all fun off =>
      decide (decode16 (thBranchWord op + off) = some ⟨op, [.dist (thReach op + 2) (toSigned (thReach op + 1) off * 2)]⟩)) = true := by
  decide +kernel

/-- A branch to a name assembles to a halfword whose distance field is clear; filling the field gives the branch. -/
theorem th_branch {c : Ctx} {op : TOp} (hop : op ∈ thBranches) {t label : Str} (ht : eqNoCase t op.name.toList) (hpc : 0 ≤ c.pc)
    (hne : label ≠ []) (hhash : label.head? ≠ some '#')
    (hnum : parseInteger c.sy c.labels label (thReach op + 2) true = .ok none) :
    ∃ blob, Emits thumb c t [label] blob [thOffsetRef (thReach op) label c.pc] ∧ blob.length = 2 ∧
      ofBytes false blob % 2 ^ (thReach op + 1) = 0 ∧
      ∀ off, off < 2 ^ (thReach op + 1) →
        decode16 (ofBytes false blob + off) = some ⟨op, [.dist (thReach op + 2) (toSigned (thReach op + 1) off * 2)]⟩ := by
  obtain ⟨h1, h2, h3, h4⟩ := branch_form op hop
  obtain ⟨h5, h6, h7⟩ := branch_decode op hop
  have hw := ofBytes_wordBytes false 2 (thBranchWord op : Int)
  have hw : ofBytes false (wordBytes false 2 (thBranchWord op : Int)) = thBranchWord op := by omega
  refine ⟨_, thumb_emits h1 ht ?_, wordBytes_length false 2 (thBranchWord op), by rw [hw]; exact h6, fun off ho => ?_⟩
  · have hm : matchAll [label] ((thBranchForm op).ops.map ThOp.pat) = true := by
      rw [h2]
      simp only [List.map_cons, List.map_nil, matchAll, Bool.and_true]
      exact (matches_offset _ label).2 ⟨hne, hhash⟩
    rw [thRun_of (by simp [thExclusive]) (List.mem_singleton_self _) hm]
    refine ThForm.build_of h3 ?_ h4
    rw [h2]
    have hv : thOffset (thReach op) label c = (.ok 0, [thOffsetRef (thReach op) label c.pc]) := by
      rw [thOffset_eq]
      refine parseIntegerOrLabel_label ?_
      show parseInteger c.sy c.labels label (thReach op + 2) (false || (c.pc + 4 != 0)) = _
      rw [pc_ne_zero hpc]; exact hnum
    show (thOffset (thReach op) label >>= fun v => _) c = _
    rw [H.bind_of hv (r' := []) (x := .ok [0])]
    · rfl
    · rfl
  · rw [hw]
    have := List.all_eq_true.1 h7 off (by simpa using ho)
    exact of_decide_eq_true this

theorem offsetRef_ne {hi : Nat} {pc : Int} (label : Str) (h : 0 ≤ pc) : (thOffsetRef hi label pc).relative ≠ 0 := by
  show pc + 4 ≠ 0
  omega

theorem refRange_rel {r : Reloc} {v : Int} (h : r.relative ≠ 0) : RefRange r v ↔ -(2 ^ (r.bitsSize - 1)) ≤ v ∧ v < 2 ^ (r.bitsSize - 1) := by
  unfold RefRange; rw [if_pos h]

theorem shr_signed {k : Nat} {d : Int} (h1 : -(2 ^ (k + 1)) ≤ d) (h2 : d < 2 ^ (k + 1)) :
    (pyShr d 1 % 2 ^ (k + 1)).toNat < 2 ^ (k + 1) ∧ toSigned (k + 1) (pyShr d 1 % 2 ^ (k + 1)).toNat * 2 = d - d % 2 := by
  have hp : (0 : Int) < 2 ^ k := Int.pow_pos (by decide)
  have e : (2 : Int) ^ (k + 1) = 2 ^ k * 2 := Int.pow_succ 2 k
  have hm := Int.emod_nonneg (pyShr d 1) (b := 2 ^ (k + 1)) (by omega)
  have hl := Int.emod_lt_of_pos (pyShr d 1) (b := 2 ^ (k + 1)) (by omega)
  refine ⟨by rw [← Int.ofNat_lt]; simp only [Int.natCast_pow]; rw [Int.toNat_of_nonneg hm]; exact hl, ?_⟩
  unfold toSigned
  rw [pyShr_div] at *
  have hs : (d / 2 ^ 1 % 2 ^ (k + 1) = d / 2 ∧ 0 ≤ d / 2) ∨ (d / 2 ^ 1 % 2 ^ (k + 1) = d / 2 + 2 ^ (k + 1) ∧ d / 2 < 0) := by
    rcases Int.lt_or_le (d / 2) 0 with h | h
    · right
      refine ⟨?_, h⟩
      rw [show d / 2 ^ 1 = d / 2 from rfl, ← Int.add_emod_right]
      exact Int.emod_eq_of_lt (by omega) (by omega)
    · left
      exact ⟨Int.emod_eq_of_lt h (by show d / 2 < _; omega), h⟩
  have hcast : (((2 : Nat) ^ (k + 1) : Nat) : Int) = 2 ^ (k + 1) := by simp
  generalize hy : d / 2 ^ 1 % 2 ^ (k + 1) = y at *
  split
  · next hlt =>
    have : 2 * (y.toNat : Int) < 2 ^ (k + 1) := by rw [← hcast]; exact_mod_cast hlt
    rcases hs with ⟨h, h'⟩ | ⟨h, h'⟩ <;> omega
  · next hlt =>
    have : ¬ 2 * (y.toNat : Int) < 2 ^ (k + 1) := by rw [← hcast]; exact_mod_cast hlt
    rcases hs with ⟨h, h'⟩ | ⟨h, h'⟩ <;> omega

/-- C62: in a linked program a branch to a label goes to it: the instruction in the output is the branch
written, and its address plus 4 plus the distance in it is the address of the label.  (The label is at
an even address; so is the branch, or the distance is one too small.) -/
theorem C62_reaches (s s2 s3 : St) (op : TOp) (hop : op ∈ thBranches) (t label : Str) (ht : eqNoCase t op.name.toList) (hpc : 0 ≤ s.pc)
    (hne : label ≠ []) (hhash : label.head? ≠ some '#') (hplain : ∀ ch ∈ label, formulaChar ch = false)
    (hnum : parseInteger thumb.sy s.labels label (thReach op + 2) true = .ok none)
    (hprog : InProgram thumb s t [label] s2) (hlink : LinksAlone thumb s2 s3 s.bytes.length (thOffsetRef (thReach op) label s.pc)) :
    ∃ l off, s2.labels.lookup label = some l ∧ (l.org + l.base) % 2 = 0 ∧
      decode16 (ofBytes false (window s3.bytes s.bytes.length 2)) = some ⟨op, [.dist (thReach op + 2) off]⟩ ∧
      s.pc + 4 + off = l.org + l.base - s.pc % 2 := by
  obtain ⟨blob, hem, hlen, hclear, hdec⟩ := th_branch (c := ctxOf thumb s) hop ht hpc hne hhash hnum
  have hR := hprog.recorded hem (by simp [thOffsetRef, hlen]) (by simp [thOffsetRef])
  have hwin : window blob 0 2 = blob := by unfold window; rw [List.drop_zero, List.take_of_length_le (by omega)]
  have hk : thReach op < 16 := by unfold thReach; split <;> decide
  obtain ⟨l, h1, hrg, hal, hw⟩ := half_filled (k := thReach op) hR hlink hk rfl rfl
    (by show ofBytes false (window blob 0 2) % _ = 0; rw [hwin]; exact hclear) hne hplain
  have hal : (l.org + l.base) % 2 = 0 := hal
  have hw : ofBytes false (window s3.bytes s.bytes.length 2) =
      ofBytes false (window blob 0 2) + (pyShr (l.org + l.base - (s.pc + 4)) 1 % 2 ^ (thReach op + 1)).toNat := hw
  have hrg : -(2 ^ (thReach op + 1)) ≤ l.org + l.base - (s.pc + 4) ∧ l.org + l.base - (s.pc + 4) < 2 ^ (thReach op + 1) :=
    (refRange_rel (offsetRef_ne label hpc)).1 hrg
  obtain ⟨b1, b2⟩ := shr_signed hrg.1 hrg.2
  rw [hwin] at hw
  refine ⟨l, _, h1, hal, by rw [hw]; exact hdec _ b1, ?_⟩
  rw [b2]
  omega

/-- C62: a branch that is too far away is not linked. -/
theorem C62_rejected (s s2 : St) (op : TOp) (hop : op ∈ thBranches) (t label : Str) (ht : eqNoCase t op.name.toList) (hpc : 0 ≤ s.pc)
    (hne : label ≠ []) (hhash : label.head? ≠ some '#') (hplain : ∀ ch ∈ label, formulaChar ch = false)
    (hnum : parseInteger thumb.sy s.labels label (thReach op + 2) true = .ok none)
    (hprog : InProgram thumb s t [label] s2) (hord : ∀ e ∈ s2.relocs, Ordinary e.2)
    (l : LabelInfo) (hlk : s2.labels.lookup label = some l)
    (hfar : l.org + l.base - (s.pc + 4) < -(2 ^ (thReach op + 1)) ∨ 2 ^ (thReach op + 1) ≤ l.org + l.base - (s.pc + 4)) :
    (link thumb .dummy s2).1 ≠ .ok () := by
  obtain ⟨blob, hem, hlen, -⟩ := th_branch (c := ctxOf thumb s) hop ht hpc hne hhash hnum
  have hR := hprog.recorded hem (by simp [thOffsetRef, hlen]) (by simp [thOffsetRef])
  refine plain_rejected rfl hord hR hne hplain hlk ?_
  refine fun hrg => absurd ((refRange_rel (offsetRef_ne label hpc)).1 hrg) ?_
  show ¬ (-(2 ^ (thReach op + 1)) ≤ l.org + l.base - (s.pc + 4) ∧ l.org + l.base - (s.pc + 4) < 2 ^ (thReach op + 1))
  omega

/-- C62: one that is near enough, to an even address, is linked, if nothing is wrong with the other references. -/
theorem C62_accepted (s s2 : St) (op : TOp) (hop : op ∈ thBranches) (t label : Str) (ht : eqNoCase t op.name.toList) (hpc : 0 ≤ s.pc)
    (hne : label ≠ []) (hhash : label.head? ≠ some '#') (hplain : ∀ ch ∈ label, formulaChar ch = false)
    (hnum : parseInteger thumb.sy s.labels label (thReach op + 2) true = .ok none)
    (hprog : InProgram thumb s t [label] s2) (hord : ∀ e ∈ s2.relocs, Ordinary e.2)
    (l : LabelInfo) (hlk : s2.labels.lookup label = some l) (heven : (l.org + l.base) % 2 = 0)
    (hnear : -(2 ^ (thReach op + 1)) ≤ l.org + l.base - (s.pc + 4) ∧ l.org + l.base - (s.pc + 4) < 2 ^ (thReach op + 1))
    (hothers : ∀ e ∈ s2.relocs, e ≠ (s.bytes.length, thOffsetRef (thReach op) label s.pc) →
      ∀ x, ¬ Fault (labelRelative thumb.sy s2.labels) s2.bytes.length e x) :
    (link thumb .dummy s2).1 = .ok () := by
  obtain ⟨blob, hem, hlen, -⟩ := th_branch (c := ctxOf thumb s) hop ht hpc hne hhash hnum
  have hR := hprog.recorded hem (by simp [thOffsetRef, hlen]) (by simp [thOffsetRef])
  rw [C38_success thumb rfl s2 hord]
  intro e he x
  by_cases hee : e = (s.bytes.length, thOffsetRef (thReach op) label s.pc)
  · subst hee
    refine plain_fault hR hne hplain hlk heven (fun h => absurd h (offsetRef_ne label hpc)) ?_ ?_ x
    · exact (refRange_rel (offsetRef_ne label hpc)).2 hnear
    · intro hi lo hb
      cases hb
      show 0 ≤ thReach op ∧ -(2 ^ (thReach op)) ≤ pyShr (l.org + l.base - (s.pc + 4)) 1 ∧ pyShr (l.org + l.base - (s.pc + 4)) 1 < 2 ^ (thReach op + 1)
      rw [pyShr_div]
      have hp : (0 : Int) < 2 ^ (thReach op) := Int.pow_pos (by decide)
      have e : (2 : Int) ^ (thReach op + 1) = 2 ^ (thReach op) * 2 := Int.pow_succ 2 _
      omega
  · exact hothers e he hee x

/-! ## C63: calls -/

theorem shr_shr (d : Int) (a b : Nat) : pyShr (pyShr d a) b = pyShr d (a + b) := by
  simp only [pyShr_div]
  rw [Int.pow_add, ← Int.ediv_ediv_of_nonneg (Int.le_of_lt (Int.pow_pos (by decide)))]

/-- The two halves of a call, for a distance `2 * y`. -/
theorem bl_decode (y : Int) (h1 : -(2 ^ 21) ≤ y) (h2 : y < 2 ^ 22) :
    ∃ off, decodeBl (0xF000 + (pyShr y 11 % 2 ^ 11).toNat) (0xF800 + (y % 2 ^ 11).toNat) = some ⟨.BL, [.dist 23 off]⟩ ∧
      off % 2 ^ 23 = 2 * y % 2 ^ 23 ∧ (y < 2 ^ 21 → off = 2 * y) := by
  unfold decodeBl
  rw [if_pos (by omega)]
  refine ⟨_, rfl, ?_⟩
  have e1 : (0xF000 + (pyShr y 11 % 2 ^ 11).toNat) % 2048 = (pyShr y 11 % 2 ^ 11).toNat := by omega
  have e2 : (0xF800 + (y % 2 ^ 11).toNat) % 2048 = (y % 2 ^ 11).toNat := by omega
  rw [e1, e2, pyShr_div]
  unfold toSigned
  simp only [Int.reducePow, Nat.reducePow]
  constructor
  · split <;> omega
  · intro; split <;> omega

theorem bl_pack (b : Nat) (hb : b = 0xF000 ∨ b = 0xF800) (v : Int) (h1 : -1024 ≤ v) (h2 : v < 2048) :
    packBitsLe16u b [⟨10, 0, v⟩] = .ok (wordBytes false 2 (b + (v % 2 ^ 11).toNat : Nat)) := by
  have hc : ∀ b : Nat, b = 0xF000 ∨ b = 0xF800 → ∀ i, i ≤ 10 → bit (b : Int) i = false := by
    intro b hb i hi
    rw [bit_natCast]
    have : ∀ i, i ≤ 10 → (0xF000 : Nat).testBit i = false ∧ (0xF800 : Nat).testBit i = false := by decide
    rcases hb with rfl | rfl
    · exact (this i hi).1
    · exact (this i hi).2
  have hok : FieldOk ⟨10, 0, v⟩ := ⟨Nat.zero_le _, h1, h2⟩
  have hs := packBits_sum [⟨10, 0, v⟩] (b : Int) (by omega) (by intro f hf; cases List.mem_singleton.1 hf; exact hok)
    (by intro f hf i _ hi; cases List.mem_singleton.1 hf; exact hc b hb i hi) (by simp)
  have hv : (b : Int) + (([⟨10, 0, v⟩] : List BitField).map fieldPart).foldr (· + ·) 0 = ((b + (v % 2 ^ 11).toNat : Nat) : Int) := by
    show (b : Int) + (v % 2 ^ 11 * 2 ^ 0 + 0) = _
    omega
  rw [hv] at hs
  have hlt : b + (v % 2 ^ 11).toNat < 2 ^ 16 := by omega
  clear hv hc
  generalize b + (v % 2 ^ 11).toNat = n at *
  unfold packBitsLe16u
  rw [hs]
  have := pack16u false (n : Int) (by omega) (by omega)
  simp only [Bool.false_eq_true, if_false] at this
  exact this

theorem bl_words (b0 b1 : Nat) (h0 : b0 < 2 ^ 16) (h1 : b1 < 2 ^ 16) (blob : Bytes) (hb : blob = wordBytes false 2 (b0 : Nat) ++ wordBytes false 2 (b1 : Nat)) :
    blob.length = 4 ∧ ofBytes false (window blob 0 2) = b0 ∧ ofBytes false (window blob 2 2) = b1 := by
  have l0 := wordBytes_length false 2 (b0 : Int)
  have l1 := wordBytes_length false 2 (b1 : Int)
  have w0 := ofBytes_wordBytes false 2 (b0 : Int)
  have w1 := ofBytes_wordBytes false 2 (b1 : Int)
  subst hb
  refine ⟨by simp [l0, l1], ?_, ?_⟩
  · unfold window
    rw [List.drop_zero, List.take_append_of_le_length (by omega), List.take_of_length_le (by omega)]
    omega
  · unfold window
    rw [List.drop_append, List.drop_of_length_le (by omega), l0]
    simp only [Nat.sub_self, List.drop_zero, List.nil_append]
    rw [List.take_of_length_le (by omega)]
    omega

theorem bl_blank : (packLe16u [some 0xF000, some 0xF800]) = .ok (wordBytes false 2 (0xF000 : Nat) ++ wordBytes false 2 (0xF800 : Nat)) := by decide +kernel

theorem thumb_bl {t : Str} (ht : eqNoCase t "BL".toList) : thumb.instrs (thumb.key t) = some (.handler thBl) := by
  rw [thumb_key, show upper t = upper "BL".toList from ht]; rfl

theorem thumb_bl_iff {c : Ctx} {t : Str} (ht : eqNoCase t "BL".toList) {rest : List Str} {blob : Bytes} {rels : List Reloc} :
    Emits thumb c t rest blob rels ↔ thBl (t :: rest) c = (.ok (some blob), rels) := by
  constructor
  · intro h
    cases h with
    | fixed hf _ => rw [thumb_bl ht] at hf; cases hf
    | handler hf he => rw [thumb_bl ht] at hf; cases hf; exact he
  · exact .handler (thumb_bl ht)

theorem thBl_match {t : Str} {rest : List Str} (h : instrMatch (t :: rest) [(ThOp.offset 0).pat] = true) :
    ∃ label, rest = [label] ∧ label ≠ [] ∧ label.head? ≠ some '#' := by
  rw [instrMatch_cons] at h
  match rest, h with
  | [], h => simp [matchAll] at h
  | [l], h =>
    simp only [matchAll, Bool.and_true] at h
    obtain ⟨h1, h2⟩ := (matches_offset 0 l).1 h
    exact ⟨l, rfl, h1, h2⟩
  | _ :: _ :: _, h => simp [matchAll] at h

/-- What a call assembles to: with a number other than 0 the distance, otherwise two references. -/
theorem bl_emits {c : Ctx} {t : Str} {rest : List Str} {blob : Bytes} {rels : List Reloc} (ht : eqNoCase t "BL".toList)
    (h : Emits thumb c t rest blob rels) : ∃ label, rest = [label] ∧ label ≠ [] ∧ label.head? ≠ some '#' ∧
      ((∃ v, parseInteger c.sy c.labels label 23 true = .ok (some v) ∧ v ≠ 0 ∧ rels = [] ∧
          blob = wordBytes false 2 (0xF000 + (pyShr (pyShr v 1) 11 % 2 ^ 11).toNat : Nat) ++ wordBytes false 2 (0xF800 + (pyShr v 1 % 2 ^ 11).toNat : Nat)) ∨
       ((parseInteger c.sy c.labels label 23 true = .ok none ∨ parseInteger c.sy c.labels label 23 true = .ok (some 0)) ∧
          rels = [thBlHigh label c.pc, thBlLow label c.pc] ∧ blob = wordBytes false 2 (0xF000 : Nat) ++ wordBytes false 2 (0xF800 : Nat))) := by
  rw [thumb_bl_iff ht] at h
  unfold thBl at h
  cases hm : instrMatch (t :: rest) [(ThOp.offset 0).pat] with
  | false => rw [hm, if_neg (by decide)] at h; cases h
  | true =>
    rw [hm, if_pos rfl] at h
    obtain ⟨label, rfl, hne, hh⟩ := thBl_match hm
    refine ⟨label, rfl, hne, hh, ?_⟩
    obtain ⟨o, r1, r2, h1, h2, rfl⟩ := H.bind_ok (show (H.parseInteger label 23 true >>= fun o => _) c = _ from h)
    rw [H.parseInteger_apply] at h1
    obtain ⟨h3, h4⟩ := Prod.mk.inj h1
    subst h4
    by_cases hz : o.getD 0 ≠ 0
    · obtain ⟨v, rfl⟩ : ∃ v, o = some v := by
        cases o with
        | none => exact absurd rfl hz
        | some v => exact ⟨v, rfl⟩
      have hz : v ≠ 0 := hz
      obtain ⟨x, -, -, b1, b2, -⟩ := number_bounds (by decide) h3
      simp only [Option.getD_some] at h2
      rw [if_pos hz] at h2
      have e : pyAnd (pyShr v 1) 0x7FF = pyShr v 1 % 2 ^ 11 := pyAnd_mask (pyShr v 1) 11
      have p0 := bl_pack 0xF000 (.inl rfl) (pyShr (pyShr v 1) 11) (by simp only [pyShr_div]; omega) (by simp only [pyShr_div]; omega)
      have p1 := bl_pack 0xF800 (.inr rfl) (pyAnd (pyShr v 1) 0x7FF) (by rw [e]; omega) (by rw [e]; omega)
      have h2 : (H.lift (packBitsLe16u (0xF000 : Nat) [⟨10, 0, pyShr (pyShr v 1) 11⟩]) >>= fun b0 =>
        H.lift (packBitsLe16u (0xF800 : Nat) [⟨10, 0, pyAnd (pyShr v 1) 0x7FF⟩]) >>= fun b1 => pure (some (b0 ++ b1))) c = (.ok (some blob), r2) := h2
      rw [p0, p1, e, Int.emod_emod] at h2
      cases h2
      exact .inl ⟨v, h3, hz, rfl, rfl⟩
    · rw [if_neg hz] at h2
      have h2 : (H.lift (packLe16u [some 0xF000, some 0xF800]) >>= fun b => (pure (some b) : H (Option Bytes))) c = (.ok (some blob), []) ∧
          r2 = [thBlHigh label c.pc, thBlLow label c.pc] := by
        cases h2; exact ⟨rfl, rfl⟩
      rw [bl_blank] at h2
      obtain ⟨h2, rfl⟩ := h2
      cases h2
      refine .inr ⟨?_, rfl, rfl⟩
      cases o with
      | none => exact .inl h3
      | some v => have : v = 0 := Classical.not_not.1 hz; subst this; exact .inr h3

/-- C63: a call with a number other than 0 is four bytes, which the processor decodes to a call of that
distance.  (An odd distance is rounded down.) -/
theorem C63_decodes (c : Ctx) (t : Str) (rest : List Str) (blob : Bytes) (ht : eqNoCase t "BL".toList) (h : Emits thumb c t rest blob []) :
    blob.length = 4 ∧ ∃ tok x off, rest = [tok] ∧ OperandValue c [] tok x ∧
      decodeBl (ofBytes false (window blob 0 2)) (ofBytes false (window blob 2 2)) = some ⟨.BL, [.dist 23 off]⟩ ∧
      off % 2 ^ 23 = (x - x % 2) % 2 ^ 23 := by
  obtain ⟨tok, rfl, -, -, hc⟩ := bl_emits ht h
  rcases hc with ⟨v, hv, hz, -, hb⟩ | ⟨-, hr, -⟩
  · obtain ⟨x, hx, hvx, b1, b2, -⟩ := number_bounds (by decide) hv
    simp only [Nat.reduceSub, Int.reducePow] at b1 b2 hvx
    obtain ⟨off, hd, ho, -⟩ := bl_decode (pyShr v 1) (by rw [pyShr_div]; omega) (by rw [pyShr_div]; omega)
    obtain ⟨l, w0, w1⟩ := bl_words _ _ (by omega) (by omega) blob hb
    refine ⟨l, tok, x, off, rfl, hx, by rw [w0, w1]; exact hd, ?_⟩
    rw [ho, pyShr_div]
    rcases hvx with rfl | ⟨-, rfl⟩ <;> omega
  · cases hr

/-- C63: every call the processor has, other than to the next instruction but one (distance 0), can be
written with its distance in decimal. -/
theorem C63_complete (c : Ctx) (w₁ w₂ : Nat) (h₁ : w₁ < 2 ^ 16) (h₂ : w₂ < 2 ^ 16) (off : Int)
    (hd : decodeBl w₁ w₂ = some ⟨.BL, [.dist 23 off]⟩) (hz : off ≠ 0)
    (t : Str) (ht : eqNoCase t "BL".toList) (tok : Str) (hh : tok.head? ≠ some '#') (hv : TokenValue c.sy c.labels tok off true) :
    ∃ blob, Emits thumb c t [tok] blob [] ∧ ofBytes false (window blob 0 2) = w₁ ∧ ofBytes false (window blob 2 2) = w₂ := by
  unfold decodeBl at hd
  split at hd
  · next hw =>
    simp only [Option.some.injEq, TInstr.mk.injEq, true_and, List.cons.injEq, TArg.dist.injEq, and_true] at hd
    unfold toSigned at hd
    have hb : -(2 ^ 22) ≤ off ∧ off < 2 ^ 22 := by
      simp only [Nat.reducePow, Int.reducePow] at *
      split at hd <;> omega
    have hp : parseInteger c.sy c.labels tok 23 true = .ok (some off) :=
      (C13_parse_iff _ _ _ _ _ _ (by decide)).2 ⟨off, true, hv, .inr (.inr (.inr ⟨rfl, rfl, hb.1, hb.2, rfl⟩))⟩
    have e : pyAnd (pyShr off 1) 0x7FF = pyShr off 1 % 2 ^ 11 := pyAnd_mask (pyShr off 1) 11
    have p0 := bl_pack 0xF000 (.inl rfl) (pyShr (pyShr off 1) 11) (by simp only [pyShr_div]; omega) (by simp only [pyShr_div]; omega)
    have p1 := bl_pack 0xF800 (.inr rfl) (pyAnd (pyShr off 1) 0x7FF) (by rw [e]; omega) (by rw [e]; omega)
    have v1 : 0xF000 + (pyShr (pyShr off 1) 11 % 2 ^ 11).toNat = w₁ := by
      simp only [pyShr_div, Nat.reducePow, Int.reducePow] at *
      split at hd <;> omega
    have v2 : 0xF800 + (pyAnd (pyShr off 1) 0x7FF % 2 ^ 11).toNat = w₂ := by
      rw [e]
      simp only [pyShr_div, Nat.reducePow, Int.reducePow] at *
      split at hd <;> omega
    rw [v1] at p0
    rw [v2] at p1
    obtain ⟨-, q0, q1⟩ := bl_words w₁ w₂ h₁ h₂ _ rfl
    refine ⟨_, (thumb_bl_iff ht).2 ?_, q0, q1⟩
    unfold thBl
    rw [if_pos (by rw [instrMatch_cons]; simp only [matchAll, Bool.and_true]; exact (matches_offset 0 tok).2 ⟨token_ne_nil hv, hh⟩)]
    show (H.parseInteger tok 23 true >>= fun o => _) c = _
    rw [H.bind_run (show H.parseInteger tok 23 true c = (.ok (some off), []) by rw [H.parseInteger_apply, hp])]
    simp only [Option.getD_some]
    rw [if_pos hz]
    show (H.lift (packBitsLe16u (0xF000 : Nat) [⟨10, 0, pyShr (pyShr off 1) 11⟩]) >>= fun b0 =>
        H.lift (packBitsLe16u (0xF800 : Nat) [⟨10, 0, pyAnd (pyShr off 1) 0x7FF⟩]) >>= fun b1 => pure (some (b0 ++ b1))) c = _
    rw [p0, p1]
    rfl
  · cases hd

theorem blRef_ne {pc : Int} (label : Str) (h : 0 ≤ pc) : (thBlHigh label pc).relative ≠ 0 ∧ (thBlLow label pc).relative ≠ 0 := by
  constructor <;> (show pc + 4 ≠ 0; omega)

theorem bl_offsets (label : Str) (pc : Int) : ([thBlHigh label pc, thBlLow label pc].map (·.offset)).Nodup := by simp [thBlHigh, thBlLow]

theorem bl_label {c : Ctx} {t label : Str} (ht : eqNoCase t "BL".toList) (hne : label ≠ []) (hh : label.head? ≠ some '#')
    (hnum : parseInteger c.sy c.labels label 23 true = .ok none) :
    Emits thumb c t [label] (wordBytes false 2 (0xF000 : Nat) ++ wordBytes false 2 (0xF800 : Nat)) [thBlHigh label c.pc, thBlLow label c.pc] := by
  refine (thumb_bl_iff ht).2 ?_
  unfold thBl
  rw [if_pos (by rw [instrMatch_cons]; simp only [matchAll, Bool.and_true]; exact (matches_offset 0 label).2 ⟨hne, hh⟩)]
  show (H.parseInteger label 23 true >>= fun o => _) c = _
  rw [H.bind_run (show H.parseInteger label 23 true c = (.ok none, []) by rw [H.parseInteger_apply, hnum])]
  rw [bl_blank]
  rfl

/-- The finished program links, and neither of the two references of the call at position `a` shares a
byte with another reference. -/
structure LinksCall (s s' : St) (a : Nat) (label : Str) (pc : Int) : Prop where
  high : LinksAlone thumb s s' a (thBlHigh label pc)
  low : LinksAlone thumb s s' (a + 2) (thBlLow label pc)

/-- C63: in a linked program a call of a label goes to it: its address plus 4 plus the distance in it is
the address of the label.  (The label is at an even address; so is the call, or the distance is one too
small.) -/
theorem C63_reaches (s s2 s3 : St) (t label : Str) (ht : eqNoCase t "BL".toList) (hpc : 0 ≤ s.pc)
    (hne : label ≠ []) (hhash : label.head? ≠ some '#') (hplain : ∀ ch ∈ label, formulaChar ch = false)
    (hnum : parseInteger thumb.sy s.labels label 23 true = .ok none)
    (hprog : InProgram thumb s t [label] s2) (hlink : LinksCall s2 s3 s.bytes.length label s.pc) :
    ∃ l off, s2.labels.lookup label = some l ∧ (l.org + l.base) % 2 = 0 ∧
      decodeBl (ofBytes false (window s3.bytes s.bytes.length 2)) (ofBytes false (window s3.bytes (s.bytes.length + 2) 2)) =
        some ⟨.BL, [.dist 23 off]⟩ ∧
      s.pc + 4 + off = l.org + l.base - s.pc % 2 := by
  have hem := bl_label (c := ctxOf thumb s) ht hne hhash hnum
  obtain ⟨hlen, q0, q1⟩ := bl_words 0xF000 0xF800 (by decide) (by decide) _ rfl
  generalize wordBytes false 2 (0xF000 : Nat) ++ wordBytes false 2 (0xF800 : Nat) = blob at *
  have r0 := hprog.recordedAll hem (bl_offsets label s.pc) (r := thBlHigh label s.pc) (by exact List.mem_cons_self) (by simp [thBlHigh, hlen]) (by simp [thBlHigh])
  have r1 := hprog.recordedAll hem (bl_offsets label s.pc) (r := thBlLow label s.pc) (by exact List.mem_cons_of_mem _ List.mem_cons_self)
    (by simp [thBlLow, hlen]) (by simp [thBlLow])
  obtain ⟨l, h1, hrg, hal, hw⟩ := half_filled (k := 10) r0 hlink.high (by decide) rfl rfl
    (by show ofBytes false (window blob 0 2) % _ = 0; rw [q0]) hne hplain
  obtain ⟨l', h1', -, -, hw'⟩ := half_filled (k := 10) r1 hlink.low (by decide) rfl rfl
    (by show ofBytes false (window blob 2 2) % _ = 0; rw [q1]) hne hplain
  have hal : (l.org + l.base) % 2 = 0 := hal
  have h1 : s2.labels.lookup label = some l := h1
  have h1' : s2.labels.lookup label = some l' := h1'
  rw [h1] at h1'
  cases h1'
  have hrg : -(2 ^ 22) ≤ l.org + l.base - (s.pc + 4) ∧ l.org + l.base - (s.pc + 4) < 2 ^ 22 := (refRange_rel (blRef_ne label hpc).1).1 hrg
  have hw : ofBytes false (window s3.bytes s.bytes.length 2) =
      ofBytes false (window blob 0 2) + (pyShr (l.org + l.base - (s.pc + 4)) 12 % 2 ^ 11).toNat := hw
  have hw' : ofBytes false (window s3.bytes (s.bytes.length + 2) 2) =
      ofBytes false (window blob 2 2) + (pyAnd (pyShr (l.org + l.base - (s.pc + 4)) 1) 0x7FF % 2 ^ 11).toNat := hw'
  have e : pyAnd (pyShr (l.org + l.base - (s.pc + 4)) 1) 0x7FF = pyShr (l.org + l.base - (s.pc + 4)) 1 % 2 ^ 11 := pyAnd_mask _ 11
  rw [e, Int.emod_emod, q1] at hw'
  rw [show 12 = 1 + 11 from rfl, ← shr_shr, q0] at hw
  obtain ⟨off, hd, -, ho⟩ := bl_decode (pyShr (l.org + l.base - (s.pc + 4)) 1) (by rw [pyShr_div]; omega) (by rw [pyShr_div]; omega)
  refine ⟨l, off, h1, hal, by rw [hw, hw']; exact hd, ?_⟩
  rw [ho (by rw [pyShr_div]; omega), pyShr_div]
  omega

/-- C63: a call that is too far away is not linked. -/
theorem C63_rejected (s s2 : St) (t label : Str) (ht : eqNoCase t "BL".toList) (hpc : 0 ≤ s.pc)
    (hne : label ≠ []) (hhash : label.head? ≠ some '#') (hplain : ∀ ch ∈ label, formulaChar ch = false)
    (hnum : parseInteger thumb.sy s.labels label 23 true = .ok none)
    (hprog : InProgram thumb s t [label] s2) (hord : ∀ e ∈ s2.relocs, Ordinary e.2)
    (l : LabelInfo) (hlk : s2.labels.lookup label = some l)
    (hfar : l.org + l.base - (s.pc + 4) < -(2 ^ 22) ∨ 2 ^ 22 ≤ l.org + l.base - (s.pc + 4)) :
    (link thumb .dummy s2).1 ≠ .ok () := by
  have hem := bl_label (c := ctxOf thumb s) ht hne hhash hnum
  obtain ⟨hlen, -⟩ := bl_words 0xF000 0xF800 (by decide) (by decide) _ rfl
  generalize wordBytes false 2 (0xF000 : Nat) ++ wordBytes false 2 (0xF800 : Nat) = blob at *
  have r0 := hprog.recordedAll hem (bl_offsets label s.pc) (r := thBlHigh label s.pc) (by exact List.mem_cons_self) (by simp [thBlHigh, hlen]) (by simp [thBlHigh])
  refine plain_rejected rfl hord r0 hne hplain hlk ?_
  refine fun hrg => absurd ((refRange_rel (blRef_ne label hpc).1).1 hrg) ?_
  show ¬ (-(2 ^ 22) ≤ l.org + l.base - (s.pc + 4) ∧ l.org + l.base - (s.pc + 4) < 2 ^ 22)
  omega

/-- C63: one that is near enough, to an even address, is linked, if nothing is wrong with the other references. -/
theorem C63_accepted (s s2 : St) (t label : Str) (ht : eqNoCase t "BL".toList) (hpc : 0 ≤ s.pc)
    (hne : label ≠ []) (hhash : label.head? ≠ some '#') (hplain : ∀ ch ∈ label, formulaChar ch = false)
    (hnum : parseInteger thumb.sy s.labels label 23 true = .ok none)
    (hprog : InProgram thumb s t [label] s2) (hord : ∀ e ∈ s2.relocs, Ordinary e.2)
    (l : LabelInfo) (hlk : s2.labels.lookup label = some l) (heven : (l.org + l.base) % 2 = 0)
    (hnear : -(2 ^ 22) ≤ l.org + l.base - (s.pc + 4) ∧ l.org + l.base - (s.pc + 4) < 2 ^ 22)
    (hothers : ∀ e ∈ s2.relocs, e ≠ (s.bytes.length, thBlHigh label s.pc) → e ≠ (s.bytes.length + 2, thBlLow label s.pc) →
      ∀ x, ¬ Fault (labelRelative thumb.sy s2.labels) s2.bytes.length e x) :
    (link thumb .dummy s2).1 = .ok () := by
  have hem := bl_label (c := ctxOf thumb s) ht hne hhash hnum
  obtain ⟨hlen, -⟩ := bl_words 0xF000 0xF800 (by decide) (by decide) _ rfl
  generalize wordBytes false 2 (0xF000 : Nat) ++ wordBytes false 2 (0xF800 : Nat) = blob at *
  have r0 := hprog.recordedAll hem (bl_offsets label s.pc) (r := thBlHigh label s.pc) (by exact List.mem_cons_self) (by simp [thBlHigh, hlen]) (by simp [thBlHigh])
  have r1 := hprog.recordedAll hem (bl_offsets label s.pc) (r := thBlLow label s.pc) (by exact List.mem_cons_of_mem _ List.mem_cons_self)
    (by simp [thBlLow, hlen]) (by simp [thBlLow])
  rw [C38_success thumb rfl s2 hord]
  intro e he x
  by_cases h0 : e = (s.bytes.length, thBlHigh label s.pc)
  · subst h0
    refine plain_fault r0 hne hplain hlk heven (fun h => absurd h (blRef_ne label hpc).1) ((refRange_rel (blRef_ne label hpc).1).2 hnear) ?_ x
    intro hi lo hb
    cases hb
    show 0 ≤ 10 ∧ -(2 ^ 10) ≤ pyShr (l.org + l.base - (s.pc + 4)) 12 ∧ pyShr (l.org + l.base - (s.pc + 4)) 12 < 2 ^ 11
    rw [pyShr_div]
    simp only [Int.reducePow] at *
    omega
  · by_cases h1 : e = (s.bytes.length + 2, thBlLow label s.pc)
    · subst h1
      refine plain_fault r1 hne hplain hlk heven (fun h => absurd h (blRef_ne label hpc).2) ((refRange_rel (blRef_ne label hpc).2).2 hnear) ?_ x
      intro hi lo hb
      cases hb
      show 0 ≤ 10 ∧ -(2 ^ 10) ≤ pyAnd (pyShr (l.org + l.base - (s.pc + 4)) 1) 0x7FF ∧ pyAnd (pyShr (l.org + l.base - (s.pc + 4)) 1) 0x7FF < 2 ^ 11
      have e : pyAnd (pyShr (l.org + l.base - (s.pc + 4)) 1) 0x7FF = pyShr (l.org + l.base - (s.pc + 4)) 1 % 2 ^ 11 := pyAnd_mask _ 11
      rw [e]
      omega
    · exact hothers e he h0 h1 x

/-! ## C64: loads from labels -/

/-- The program counter as a load relative to it sees it. -/
theorem word_base {pc : Int} (h : 0 ≤ pc) (he : pc % 2 = 0) : pyAnd (pc + 4) (-3) = (pc + 4) / 4 * 4 := by
  obtain ⟨n, rfl⟩ := Int.eq_ofNat_of_zero_le h
  have hn : n % 2 = 0 := by omega
  show ((((n + 4) ^^^ ((n + 4) &&& 2)) : Nat) : Int) = (((n + 4 : Nat) : Int)) / 4 * 4
  rw [show (((n + 4 : Nat) : Int)) / 4 * 4 = (((n + 4) / 4 * 4 : Nat) : Int) by omega]
  congr 1
  generalize hm : n + 4 = m
  have hm : m % 2 = 0 := by omega
  apply Nat.eq_of_testBit_eq
  intro i
  rw [Nat.testBit_xor, Nat.testBit_and, show (4 : Nat) = 2 ^ 2 from rfl, Nat.testBit_mul_two_pow, Nat.testBit_div_two_pow]
  match i with
  | 0 => simp [Nat.testBit_zero, hm]
  | 1 => show (m.testBit 1 ^^ (m.testBit 1 && true)) = (false && _); cases m.testBit 1 <;> rfl
  | i + 2 =>
    have : (2 : Nat).testBit (i + 2) = false := Nat.testBit_lt_two_pow (Nat.lt_of_lt_of_le (by decide : 2 < 2 ^ 2) (Nat.pow_le_pow_right (by decide) (by omega)))
    simp [this]

theorem ldr_form : ("LDR", thTable.lookup "LDR" |>.getD []) ∈ thTable ∧
    ⟨[.low, .lb, .pc, .word, .rb], 0x4800, [⟨10, 8, .val 0 0⟩, ⟨7, 0, .val 1 2⟩], false⟩ ∈ (thTable.lookup "LDR").getD [] ∧
    thExclusive ((thTable.lookup "LDR").getD []) = true := by decide +kernel

theorem ldr_pack : ∀ rd : Nat, rd < 8 → packBitsLe16u (0x4800 : Nat) [⟨10, 8, pyShr (rd : Int) 0⟩, ⟨7, 0, pyShr 0 2⟩] =
    .ok (wordBytes false 2 (0x4800 + rd * 256 : Nat)) := by decide +kernel

theorem ldr_decode {rd off : Nat} (hr : rd < 8) (ho : off < 256) :
    decode16 (0x4800 + rd * 256 + off) = some ⟨.LDR, [.reg rd, .lb, .reg 15, .imm (off * 4), .rb]⟩ := by
  unfold decode16
  have h1 : (0x4800 + rd * 256 + off) / 2048 = 9 := by omega
  have h2 : (0x4800 + rd * 256 + off) / 256 % 8 = rd := by omega
  have h3 : (0x4800 + rd * 256 + off) % 256 = off := by omega
  simp only [h1, h2, h3]

theorem ldr_label {c : Ctx} {t a p label : Str} {rd : Nat} (ht : eqNoCase t "LDR".toList) (ha : ThReg a rd) (hr : rd < 8) (hp : ThReg p 15)
    (hne : label ≠ []) (hrel : (thWordRef label c.pc).relative ≠ 0) (hnum : parseInteger c.sy c.labels label 8 true = .ok none) :
    Emits thumb c t [a, ['['], p, '#' :: label, [']']] (wordBytes false 2 (0x4800 + rd * 256 : Nat)) [thWordRef label c.pc] := by
  obtain ⟨h1, h2, h3⟩ := ldr_form
  refine thumb_emits h1 ht ?_
  have hv : thWord ('#' :: label) c = (.ok 0, [thWordRef label c.pc]) := by
    rw [thWord_eq]
    refine parseIntegerOrLabel_label ?_
    show parseInteger c.sy c.labels label 8 (false || (thWordRef label c.pc).relative != 0) = _
    rw [show ((thWordRef label c.pc).relative != 0) = true by simpa using hrel]
    exact hnum
  have htoks : ThToks c [.low, .lb, .pc, .word, .rb] [a, ['['], p, '#' :: label, [']']] [(rd : Int), 0] ([] ++ ([thWordRef label c.pc] ++ [])) :=
    .read rfl ((matches_low a).2 ⟨rd, hr, ha⟩) (thLowReg_of hr ha c) (.skip rfl ((matches_lb _).2 rfl) (.skip rfl ((matches_pc p).2 hp)
      (.read rfl ((matches_hash _).2 ⟨label, hne, rfl⟩) hv (.skip rfl ((matches_rb _).2 rfl) .nil))))
  rw [thRun_of h3 h2 htoks.matches]
  exact ThForm.build_of rfl htoks.apply (ldr_pack rd hr)

/-- C64, as it is: a load from a label holds its distance from the program counter, which must be from
-128 to 127; a negative distance is stored without its sign, so that the load is 1024 bytes too far. -/
theorem C64_decodes (s s2 s3 : St) (t a p label : Str) (rd : Nat) (ht : eqNoCase t "LDR".toList) (ha : ThReg a rd) (hr : rd < 8) (hp : ThReg p 15)
    (hpc : 0 ≤ s.pc) (heven : s.pc % 2 = 0) (hne : label ≠ []) (hplain : ∀ ch ∈ label, formulaChar ch = false)
    (hnum : parseInteger thumb.sy s.labels label 8 true = .ok none)
    (hprog : InProgram thumb s t [a, ['['], p, '#' :: label, [']']] s2) (hlink : LinksAlone thumb s2 s3 s.bytes.length (thWordRef label s.pc)) :
    ∃ l off, s2.labels.lookup label = some l ∧
      decode16 (ofBytes false (window s3.bytes s.bytes.length 2)) = some ⟨.LDR, [.reg rd, .lb, .reg 15, .imm off, .rb]⟩ ∧
      (s.pc + 4) / 4 * 4 + off = l.org + l.base + (if l.org + l.base < s.pc / 4 * 4 + 4 then 1024 else 0) ∧
      -128 ≤ l.org + l.base - (s.pc + 4) / 4 * 4 ∧ l.org + l.base - (s.pc + 4) / 4 * 4 < 128 := by
  have hb : (thWordRef label s.pc).relative = (s.pc + 4) / 4 * 4 := word_base hpc heven
  have hrel : (thWordRef label s.pc).relative ≠ 0 := by rw [hb]; omega
  have hem := ldr_label (c := ctxOf thumb s) ht ha hr hp hne hrel hnum
  have hw0 := ofBytes_wordBytes false 2 ((0x4800 + rd * 256 : Nat) : Int)
  have hlen := wordBytes_length false 2 ((0x4800 + rd * 256 : Nat) : Int)
  have hw0 : ofBytes false (wordBytes false 2 ((0x4800 + rd * 256 : Nat) : Int)) = 0x4800 + rd * 256 := by omega
  generalize wordBytes false 2 ((0x4800 + rd * 256 : Nat) : Int) = blob at *
  have hR := hprog.recorded hem (by simp [thWordRef, hlen]) (by simp [thWordRef])
  have hwin : window blob 0 2 = blob := by unfold window; rw [List.drop_zero, List.take_of_length_le (by omega)]
  obtain ⟨l, h1, hrg, hal, hw⟩ := half_filled (k := 7) hR hlink (by decide) rfl rfl
    (by show ofBytes false (window blob 0 2) % _ = 0; rw [hwin, hw0]; omega) hne hplain
  have hal : (l.org + l.base) % 4 = 0 := hal
  have hrg := (refRange_rel hrel).1 hrg
  have hw : ofBytes false (window s3.bytes s.bytes.length 2) =
      ofBytes false (window blob 0 2) + (pyShr (l.org + l.base - (thWordRef label s.pc).relative) 2 % 2 ^ 8).toNat := hw
  have hrg : -(2 ^ 7) ≤ l.org + l.base - (thWordRef label s.pc).relative ∧ l.org + l.base - (thWordRef label s.pc).relative < 2 ^ 7 := hrg
  rw [hb] at hrg hw
  rw [hwin, hw0, pyShr_div] at hw
  refine ⟨l, (((l.org + l.base - (s.pc + 4) / 4 * 4) / 2 ^ 2 % 2 ^ 8).toNat) * 4, h1, ?_, ?_, by omega, by omega⟩
  · rw [hw]; exact ldr_decode hr (by omega)
  · split <;> omega

/-- C64: in a linked program a load from a label that is not behind it loads from the label: the program
counter (the instruction's address plus 4, rounded down to a multiple of 4) plus the offset in the
instruction is the label's address. -/
theorem C64_reaches (s s2 s3 : St) (t a p label : Str) (rd : Nat) (ht : eqNoCase t "LDR".toList) (ha : ThReg a rd) (hr : rd < 8) (hp : ThReg p 15)
    (hpc : 0 ≤ s.pc) (heven : s.pc % 2 = 0) (hne : label ≠ []) (hplain : ∀ ch ∈ label, formulaChar ch = false)
    (hnum : parseInteger thumb.sy s.labels label 8 true = .ok none)
    (hprog : InProgram thumb s t [a, ['['], p, '#' :: label, [']']] s2) (hlink : LinksAlone thumb s2 s3 s.bytes.length (thWordRef label s.pc))
    (l : LabelInfo) (hlk : s2.labels.lookup label = some l) (hahead : (s.pc + 4) / 4 * 4 ≤ l.org + l.base) :
    ∃ off : Nat, decode16 (ofBytes false (window s3.bytes s.bytes.length 2)) = some ⟨.LDR, [.reg rd, .lb, .reg 15, .imm off, .rb]⟩ ∧
      (s.pc + 4) / 4 * 4 + off = l.org + l.base := by
  obtain ⟨l', off, h1, h2, h3, -⟩ := C64_decodes s s2 s3 t a p label rd ht ha hr hp hpc heven hne hplain hnum hprog hlink
  rw [hlk] at h1
  cases h1
  rw [if_neg (by omega)] at h3
  exact ⟨off, h2, by omega⟩

/-- Disagreement: a label behind the load is accepted, and the load is from an address 1024 bytes after it. -/
theorem C64_behind (s s2 s3 : St) (t a p label : Str) (rd : Nat) (ht : eqNoCase t "LDR".toList) (ha : ThReg a rd) (hr : rd < 8) (hp : ThReg p 15)
    (hpc : 0 ≤ s.pc) (heven : s.pc % 2 = 0) (hne : label ≠ []) (hplain : ∀ ch ∈ label, formulaChar ch = false)
    (hnum : parseInteger thumb.sy s.labels label 8 true = .ok none)
    (hprog : InProgram thumb s t [a, ['['], p, '#' :: label, [']']] s2) (hlink : LinksAlone thumb s2 s3 s.bytes.length (thWordRef label s.pc))
    (l : LabelInfo) (hlk : s2.labels.lookup label = some l) (hbehind : l.org + l.base < (s.pc + 4) / 4 * 4) :
    ∃ off : Nat, decode16 (ofBytes false (window s3.bytes s.bytes.length 2)) = some ⟨.LDR, [.reg rd, .lb, .reg 15, .imm off, .rb]⟩ ∧
      (s.pc + 4) / 4 * 4 + off = l.org + l.base + 1024 := by
  obtain ⟨l', off, h1, h2, h3, -⟩ := C64_decodes s s2 s3 t a p label rd ht ha hr hp hpc heven hne hplain hnum hprog hlink
  rw [hlk] at h1
  cases h1
  rw [if_pos (by omega)] at h3
  exact ⟨off, h2, h3⟩

/-! ## Examples -/

def exThumb : St :=
  { bytes := [0, 0], counter := 2, org := 0x100, labels := [("loop".toList, ⟨0, 0x100, none⟩), ("data".toList, ⟨0, 0x110, none⟩)] }
def exThB : St := emitted exThumb [0, 0xD1] [thOffsetRef 7 "loop".toList 0x102]
def exThBl : St := emitted exThumb [0, 0xF0, 0, 0xF8] [thBlHigh "loop".toList 0x102, thBlLow "loop".toList 0x102]
def exThLdr (l : String) : St := emitted exThumb [0, 0x4B] [thWordRef l.toList 0x102]

theorem exThB_program : InProgram thumb exThumb "bne".toList ["loop".toList] exThB :=
  .last rfl (by decide +kernel) rfl (.handler rfl (Prod.ext (by decide +kernel) rfl))
theorem exThBl_program : InProgram thumb exThumb "bl".toList ["loop".toList] exThBl :=
  .last rfl (by decide +kernel) rfl (.handler rfl (Prod.ext (by decide +kernel) rfl))
theorem exThLdr_data : InProgram thumb exThumb "ldr".toList ["r3".toList, ['['], "pc".toList, "#data".toList, [']']] (exThLdr "data") :=
  .last rfl (by decide +kernel) rfl (.handler rfl (Prod.ext (by decide +kernel) rfl))
theorem exThLdr_loop : InProgram thumb exThumb "ldr".toList ["r3".toList, ['['], "pc".toList, "#loop".toList, [']']] (exThLdr "loop") :=
  .last rfl (by decide +kernel) rfl (.handler rfl (Prod.ext (by decide +kernel) rfl))

example : ∃ l off, exThB.labels.lookup "loop".toList = some l ∧ (l.org + l.base) % 2 = 0 ∧
    decode16 (ofBytes false (window (link thumb .dummy exThB).2.bytes 2 2)) = some ⟨.BNE, [.dist 9 off]⟩ ∧ 0x102 + 4 + off = l.org + l.base - 0x102 % 2 :=
  C62_reaches exThumb exThB _ .BNE (by decide) "bne".toList "loop".toList rfl (by decide) (by decide) (by decide) (by decide) (by decide +kernel)
    exThB_program (.single (pair_ok (by decide +kernel)) rfl ⟨by decide, by decide, rfl⟩)

/-- The same branch with the label too far behind. -/
def exThFar : St := { exThumb with labels := [("loop".toList, ⟨0, 0x300, none⟩)] }

example : (link thumb .dummy (emitted exThFar [0, 0xD1] [thOffsetRef 7 "loop".toList 0x102])).1 ≠ .ok () :=
  C62_rejected exThFar _ .BNE (by decide) "bne".toList "loop".toList rfl (by decide) (by decide) (by decide) (by decide) (by decide +kernel)
    (.last rfl (by decide +kernel) rfl (.handler rfl (Prod.ext (by decide +kernel) rfl)))
    (by intro e he; cases List.mem_singleton.1 he; exact ⟨by decide, by decide, rfl⟩) _ rfl (.inr (by decide))

example : (link thumb .dummy exThB).1 = .ok () :=
  C62_accepted exThumb exThB .BNE (by decide) "bne".toList "loop".toList rfl (by decide) (by decide) (by decide) (by decide) (by decide +kernel)
    exThB_program (by intro e he; cases List.mem_singleton.1 he; exact ⟨by decide, by decide, rfl⟩) _ rfl (by decide) (by decide)
    (by intro e he hne; cases List.mem_singleton.1 he; exact absurd rfl hne)

example : ∃ blob, Emits thumb exTh "BL".toList ["-6".toList] blob [] ∧
    ofBytes false (window blob 0 2) = 0xF7FF ∧ ofBytes false (window blob 2 2) = 0xFFFD :=
  C63_complete exTh 0xF7FF 0xFFFD (by decide) (by decide) (-6) (by decide +kernel) (by decide) "BL".toList rfl "-6".toList (by decide)
    ⟨-6, by decide +kernel, by decide +kernel⟩

theorem exThBl_refs : exThBl.relocs = [(2, thBlHigh "loop".toList 0x102), (4, thBlLow "loop".toList 0x102)] := rfl

theorem exThBl_links : LinksCall exThBl (link thumb .dummy exThBl).2 2 "loop".toList 0x102 := by
  have ok : link thumb .dummy exThBl = (.ok (), (link thumb .dummy exThBl).2) := pair_ok (by decide +kernel)
  have ord : ∀ e ∈ exThBl.relocs, Ordinary e.2 := by
    intro e he
    rw [exThBl_refs] at he
    simp only [List.mem_cons, List.not_mem_nil, or_false] at he
    rcases he with rfl | rfl <;> exact ⟨by decide, by decide, rfl⟩
  have nd : (exThBl.relocs.map Prod.fst).Nodup := by rw [exThBl_refs]; simp
  refine ⟨⟨ok, ord, nd, ?_⟩, ⟨ok, ord, nd, ?_⟩⟩
  all_goals
    intro f hf hne j hj
    rw [exThBl_refs] at hf
    simp only [List.mem_cons, List.not_mem_nil, or_false] at hf
    rcases hf with rfl | rfl <;> simp [Covers, thBlHigh, thBlLow] at hj hne
    omega

example : ∃ l off, exThBl.labels.lookup "loop".toList = some l ∧ (l.org + l.base) % 2 = 0 ∧
    decodeBl (ofBytes false (window (link thumb .dummy exThBl).2.bytes 2 2)) (ofBytes false (window (link thumb .dummy exThBl).2.bytes 4 2)) =
      some ⟨.BL, [.dist 23 off]⟩ ∧ 0x102 + 4 + off = l.org + l.base - 0x102 % 2 :=
  C63_reaches exThumb exThBl _ "bl".toList "loop".toList rfl (by decide) (by decide) (by decide) (by decide) (by decide +kernel)
    exThBl_program exThBl_links

example : ∃ off : Nat, decode16 (ofBytes false (window (link thumb .dummy (exThLdr "data")).2.bytes 2 2)) =
      some ⟨.LDR, [.reg 3, .lb, .reg 15, .imm off, .rb]⟩ ∧ (0x102 + 4) / 4 * 4 + (off : Int) = 0 + 0x110 :=
  C64_reaches exThumb (exThLdr "data") _ "ldr".toList "r3".toList "pc".toList "data".toList 3 rfl ⟨"r3", by decide, rfl⟩ (by decide) ⟨"pc", by decide, rfl⟩
    (by decide) (by decide) (by decide) (by decide) (by decide +kernel) exThLdr_data
    (.single (pair_ok (by decide +kernel)) rfl ⟨by decide, by decide, rfl⟩) _ rfl (by decide)

example : ∃ off : Nat, decode16 (ofBytes false (window (link thumb .dummy (exThLdr "loop")).2.bytes 2 2)) =
      some ⟨.LDR, [.reg 3, .lb, .reg 15, .imm off, .rb]⟩ ∧ (0x102 + 4) / 4 * 4 + (off : Int) = 0 + 0x100 + 1024 :=
  C64_behind exThumb (exThLdr "loop") _ "ldr".toList "r3".toList "pc".toList "loop".toList 3 rfl ⟨"r3", by decide, rfl⟩ (by decide) ⟨"pc", by decide, rfl⟩
    (by decide) (by decide) (by decide) (by decide) (by decide +kernel) exThLdr_loop
    (.single (pair_ok (by decide +kernel)) rfl ⟨by decide, by decide, rfl⟩) _ rfl (by decide)

/-- Disagreement: `BL 0` is taken as a call of a label named `0`, and does not link. -/
theorem C63_zero : (assemble thumb {} 3 "BL 0\n".toList {}).1 = .ok () ∧
    (link thumb .dummy (assemble thumb {} 3 "BL 0\n".toList {}).2).1 = .error (.unknownLabel "0".toList) := by decide +kernel

end Necro
