import Verif.Props.Link
import Verif.Lemmas.Data
import Verif.Lemmas.Lookup
/-!
# C36, C39 and C42 with ascii numbers

`.db_to_ascii label` and `.dw_to_ascii label` record a reference whose window is filled
with decimal digits instead of being ORed with a binary value.
-/

namespace Necro
open Spec
open M (throw get modify lift forEach)

/-- The text written by an ascii reference for the value `t`: see `C42_text`. -/
def hookText (w : Nat) (t : Int) : Bytes := (fmtDec w t).map fun c => BitVec.ofNat 8 c.toNat

theorem natStr_digits (n : Nat) (c : Char) (h : c ∈ natStr n) : c.toNat < 128 := by
  have := Nat.isDigit_of_mem_toDigits (by decide) (by decide) h
  simp only [Char.isDigit, Bool.and_eq_true, decide_eq_true_eq] at this
  have h2 := this.2
  have : c.val.toNat ≤ 57 := h2
  have e : c.toNat = c.val.toNat := rfl
  omega

theorem fmtDec_ascii (w : Nat) (t : Int) : ∀ c ∈ fmtDec w t, c.toNat < 128 := by
  intro c hc
  cases t with
  | ofNat n =>
    simp only [fmtDec, List.mem_append, List.mem_replicate] at hc
    rcases hc with ⟨_, rfl⟩ | hc
    · decide
    · exact natStr_digits _ c hc
  | negSucc n =>
    simp only [fmtDec, List.mem_append, List.mem_cons, List.mem_replicate] at hc
    rcases hc with rfl | ⟨_, rfl⟩ | hc
    · decide
    · decide
    · exact natStr_digits _ c hc

theorem encodeAscii_map (s : Str) (h : ∀ c ∈ s, c.toNat < 128) :
    encodeAscii s = .ok (s.map fun c => BitVec.ofNat 8 c.toNat) := by
  induction s with
  | nil => rfl
  | cons c s ih =>
    simp only [encodeAscii, h c (List.mem_cons_self ..), if_true, ih fun x hx => h x (List.mem_cons_of_mem _ hx),
      List.map_cons]

theorem fmtDec_ne_nil (w : Nat) (t : Int) : fmtDec w t ≠ [] := by
  cases t with
  | ofNat n => simp [fmtDec, natStr, Nat.toDigits_ne_nil]
  | negSucc n => simp [fmtDec]

theorem hookText_pos (w : Nat) (t : Int) : 0 < (hookText w t).length := by
  have := fmtDec_ne_nil w t
  simp only [hookText, List.length_map]
  exact List.length_pos_iff.2 this

/-- Overwrite the bytes from `a` by `blob`. -/
def overlay (a : Nat) (blob : Bytes) (j : Nat) (b : Byte) : Byte :=
  if a ≤ j ∧ j < a + blob.length then blob.getD (j - a) 0#8 else b

theorem writeAt_ok (blob : Bytes) : ∀ (a : Nat) (s : St), blob = [] ∨ a + blob.length ≤ s.bytes.length →
    writeAt a blob s = (.ok (), { s with bytes := s.bytes.mapIdx (overlay a blob) }) := by
  induction blob with
  | nil =>
    intro a s _
    have : s.bytes.mapIdx (overlay a []) = s.bytes := by
      apply List.ext_getElem?
      intro j
      have hj : ¬ (a ≤ j ∧ j < a) := by omega
      cases hb : s.bytes[j]? <;> simp [overlay, hb, hj]
    rw [this]; rfl
  | cons b blob ih =>
    intro a s h
    have hl : a + (blob.length + 1) ≤ s.bytes.length := by simpa using h
    have ha : a < s.bytes.length := by omega
    show (setByte a b >>= fun _ => writeAt (a + 1) blob) s = _
    rw [bind_eq]
    unfold setByte
    rw [if_pos ha]
    simp only
    rw [ih (a + 1) _ (.inr (by simp only [List.length_set]; omega))]
    simp only
    have : (s.bytes.set a b).mapIdx (overlay (a + 1) blob) = s.bytes.mapIdx (overlay a (b :: blob)) := by
      apply List.ext_getElem?
      intro j
      simp only [List.getElem?_mapIdx, List.getElem?_set]
      by_cases hj : a = j
      · subst hj
        rw [if_pos rfl, if_pos ha, List.getElem?_eq_getElem ha]
        simp only [Option.map_some, overlay]
        rw [if_neg (by omega), if_pos (by simp)]
        simp
      · rw [if_neg hj]
        cases s.bytes[j]? with
        | none => rfl
        | some x =>
          simp only [Option.map_some, overlay, List.length_cons]
          by_cases hc : a + 1 ≤ j ∧ j < a + 1 + blob.length
          · rw [if_pos hc, if_pos (by omega), show j - a = (j - (a + 1)) + 1 by omega]
            simp
          · rw [if_neg hc, if_neg (by omega)]
    rw [this]

theorem writeAt_result (blob : Bytes) : ∀ (a : Nat) (s : St),
    (writeAt a blob s).1 = (if blob = [] ∨ a + blob.length ≤ s.bytes.length then .ok () else .error .indexError) ∧
    (writeAt a blob s).2.labels = s.labels ∧ (writeAt a blob s).2.bytes.length = s.bytes.length := by
  induction blob with
  | nil => intro a s; exact ⟨rfl, rfl, rfl⟩
  | cons b blob ih =>
    intro a s
    have e : writeAt a (b :: blob) s = (setByte a b >>= fun _ => writeAt (a + 1) blob) s := rfl
    rw [e, bind_eq]
    unfold setByte
    by_cases ha : a < s.bytes.length
    · rw [if_pos ha]
      simp only
      have h := ih (a + 1) { s with bytes := s.bytes.set a b }
      simp only [List.length_set] at h
      refine ⟨?_, h.2.1, h.2.2⟩
      rw [h.1]
      by_cases hc : a + (blob.length + 1) ≤ s.bytes.length
      · rw [if_pos (.inr (by omega)), if_pos (.inr (by simpa using hc))]
      · rw [if_neg, if_neg]
        · simp; omega
        · rintro (rfl | h)
          · simp at hc; omega
          · omega
    · rw [if_neg ha]
      refine ⟨?_, rfl, rfl⟩
      rw [if_neg]
      simp; omega

/-- The bytes a reference changes. -/
def Touches (d : Dialect) (k : LinkerKind) (ls : Labels) (e : Nat × Reloc) (j : Nat) : Prop :=
  match e.2.hook with
  | none => Covers e j
  | some w =>
    match resolveTarget d k ls e.2 with
    | .error _ => False
    | .ok (_, t) => e.1 ≤ j ∧ j < e.1 + (hookText w t).length

/-- What a reference does to the byte at `j`. -/
def act (d : Dialect) (k : LinkerKind) (ls : Labels) (e : Nat × Reloc) (j : Nat) (b : Byte) : Byte :=
  match e.2.hook with
  | none => b ||| contrib d e.1 e.2.size (storedValue d k ls e.2) j
  | some w =>
    match resolveTarget d k ls e.2 with
    | .error _ => b
    | .ok (_, t) => overlay e.1 (hookText w t) j b

/-- The error of a reference. -/
def refErr (d : Dialect) (k : LinkerKind) (ls : Labels) (len : Nat) (e : Nat × Reloc) : Option Err :=
  match e.2.hook with
  | none => linkErr d k ls len e
  | some w =>
    match resolveTarget d k ls e.2 with
    | .error x => some x
    | .ok (_, t) => if e.1 + (hookText w t).length ≤ len then none else some .indexError

theorem resolveOne_hook (d : Dialect) (k : LinkerKind) (e : Nat × Reloc) (w : Nat) (hh : e.2.hook = some w) (s : St) :
    resolveOne d k e s = match resolveTarget d k s.labels e.2 with
      | .error x => (.error x, s)
      | .ok (_, t) => writeAt e.1 (hookText w t) s := by
  unfold resolveOne
  rw [bind_eq, get_eq]
  simp only
  rw [bind_eq, lift_eq]
  cases resolveTarget d k s.labels e.2 with
  | error x => rfl
  | ok p =>
    simp only [hh]
    rw [bind_eq, lift_eq, encodeAscii_map _ (fmtDec_ascii w p.2)]
    rfl

theorem act_untouched (d : Dialect) (k : LinkerKind) (ls : Labels) (e : Nat × Reloc) (j : Nat) (b : Byte)
    (h : ¬ Touches d k ls e j) : act d k ls e j b = b := by
  unfold Touches at h
  unfold act
  cases hk : e.2.hook with
  | none =>
    rw [hk] at h
    simp only at h ⊢
    unfold contrib
    rw [if_neg (show ¬ (e.1 ≤ j ∧ j < e.1 + e.2.size) from h)]
    simp
  | some w =>
    rw [hk] at h
    simp only at h ⊢
    cases hr : resolveTarget d k ls e.2 with
    | error x => rfl
    | ok p =>
      rw [hr] at h
      simp only [overlay] at h ⊢
      rw [if_neg h]

theorem resolveOne_act (d : Dialect) (k : LinkerKind) (e : Nat × Reloc) (s : St) :
    (resolveOne d k e s).1 = (match refErr d k s.labels s.bytes.length e with | some x => .error x | none => .ok ()) ∧
    (resolveOne d k e s).2.labels = s.labels ∧ (resolveOne d k e s).2.bytes.length = s.bytes.length ∧
    (refErr d k s.labels s.bytes.length e = none →
      (resolveOne d k e s).2 = { s with bytes := s.bytes.mapIdx (act d k s.labels e) }) := by
  cases hk : e.2.hook with
  | none =>
    have hr : refErr d k s.labels s.bytes.length e = linkErr d k s.labels s.bytes.length e := by
      unfold refErr; rw [hk]
    obtain ⟨f, _, hf⟩ := orStep_resolveOne d k (fun _ => True) e hk (fun _ _ => trivial) s
    refine ⟨by rw [resolveOne_result d k e hk, hr]; cases linkErr d k s.labels s.bytes.length e <;> rfl, by rw [hf], by rw [hf]; exact orBytes_length _ _, fun hn => ?_⟩
    rw [hr] at hn
    have := resolveAll_ok d k [e] (by simpa using hk) s (by simpa using hn)
    have e1 : forEach [e] (resolveOne d k) s = (resolveOne d k e >>= fun _ => pure ()) s := rfl
    rw [e1, bind_eq] at this
    cases h1 : resolveOne d k e s with
    | mk r s1 =>
      rw [h1] at this
      cases r with
      | error x => cases this
      | ok u =>
        simp only at this
        have h2 : s1 = _ := (Prod.mk.inj this).2
        rw [h2]
        simp only
        have : orBytes s.bytes (linkMask d k s.labels [e]) = s.bytes.mapIdx (act d k s.labels e) := by
          unfold orBytes
          congr 1
          funext j b
          unfold act
          rw [hk]
          simp [linkMask, orAll]
        rw [this]
  | some w =>
    rw [resolveOne_hook d k e w hk]
    have hr : refErr d k s.labels s.bytes.length e = match resolveTarget d k s.labels e.2 with
      | .error x => some x
      | .ok (_, t) => if e.1 + (hookText w t).length ≤ s.bytes.length then none else some .indexError := by
      unfold refErr; rw [hk]
    rw [hr]
    cases ht : resolveTarget d k s.labels e.2 with
    | error x => exact ⟨rfl, rfl, rfl, by simp⟩
    | ok p =>
      simp only
      have h := writeAt_result (hookText w p.2) e.1 s
      have hne : hookText w p.2 ≠ [] := List.length_pos_iff.1 (hookText_pos w p.2)
      refine ⟨?_, h.2.1, h.2.2, fun hn => ?_⟩
      · rw [h.1]
        by_cases hc : e.1 + (hookText w p.2).length ≤ s.bytes.length
        · rw [if_pos hc, if_pos (.inr hc)]
        · rw [if_neg hc, if_neg (by simp [hne]; omega)]
      · have hc : e.1 + (hookText w p.2).length ≤ s.bytes.length := by
          by_cases hc : e.1 + (hookText w p.2).length ≤ s.bytes.length
          · exact hc
          · rw [if_neg hc] at hn; simp at hn
        rw [writeAt_ok _ _ _ (.inr hc)]
        simp only
        have : overlay e.1 (hookText w p.2) = act d k s.labels e := by
          funext j b
          unfold act
          rw [hk]
          simp only [ht]
        rw [this]

/-- What all references do to the byte at `j`, in table order. -/
def actAll (d : Dialect) (k : LinkerKind) (ls : Labels) (rs : List (Nat × Reloc)) (j : Nat) (b : Byte) : Byte :=
  rs.foldl (fun b e => act d k ls e j b) b

theorem resolveAll_act (d : Dialect) (k : LinkerKind) (rs : List (Nat × Reloc)) : ∀ s : St,
    (forEach rs (resolveOne d k) s).1 =
      (match rs.findSome? (refErr d k s.labels s.bytes.length) with | some x => .error x | none => .ok ()) ∧
    (rs.findSome? (refErr d k s.labels s.bytes.length) = none →
      (forEach rs (resolveOne d k) s).2 = { s with bytes := s.bytes.mapIdx (actAll d k s.labels rs) }) := by
  induction rs with
  | nil =>
    intro s
    refine ⟨rfl, fun _ => ?_⟩
    have : s.bytes.mapIdx (actAll d k s.labels []) = s.bytes := by
      apply List.ext_getElem?
      intro j
      cases hb : s.bytes[j]? <;> simp [actAll, hb]
    rw [this]; rfl
  | cons e rs ih =>
    intro s
    have e1 : forEach (e :: rs) (resolveOne d k) s = (resolveOne d k e >>= fun _ => forEach rs (resolveOne d k)) s := rfl
    rw [e1, bind_eq]
    obtain ⟨h1, h2, h3, h4⟩ := resolveOne_act d k e s
    cases hx : resolveOne d k e s with
    | mk r s1 =>
    rw [hx] at h1 h2 h3 h4
    simp only [List.findSome?_cons] at *
    cases he : refErr d k s.labels s.bytes.length e with
    | some x => rw [he] at h1; simp only at h1; subst h1; exact ⟨rfl, by simp⟩
    | none =>
      rw [he] at h1
      simp only at h1
      subst h1
      simp only
      obtain ⟨i1, i2⟩ := ih s1
      rw [h2, h3] at i1 i2
      refine ⟨i1, fun hn => ?_⟩
      rw [i2 hn, h4 he]
      simp only
      have : (s.bytes.mapIdx (act d k s.labels e)).mapIdx (actAll d k s.labels rs) = s.bytes.mapIdx (actAll d k s.labels (e :: rs)) := by
        rw [List.mapIdx_mapIdx]
        rfl
      rw [this]

theorem resolveLabels_act (d : Dialect) (k : LinkerKind) (s s' : St) (u : Unit) (h : resolveLabels d k s = (.ok u, s')) :
    s.relocs.findSome? (refErr d k s.labels s.bytes.length) = none ∧
    s' = { s with bytes := s.bytes.mapIdx (actAll d k s.labels s.relocs) } := by
  unfold resolveLabels at h
  rw [bind_eq, get_eq] at h
  simp only at h
  obtain ⟨h1, h2⟩ := resolveAll_act d k s.relocs s
  rw [h] at h1 h2
  have hn : s.relocs.findSome? (refErr d k s.labels s.bytes.length) = none := by
    cases hf : s.relocs.findSome? (refErr d k s.labels s.bytes.length) with
    | none => rfl
    | some x => rw [hf] at h1; cases h1
  exact ⟨hn, h2 hn⟩

theorem resolveLabels_act' (d : Dialect) (k : LinkerKind) (s : St)
    (h : s.relocs.findSome? (refErr d k s.labels s.bytes.length) = none) :
    resolveLabels d k s = (.ok (), { s with bytes := s.bytes.mapIdx (actAll d k s.labels s.relocs) }) := by
  unfold resolveLabels
  rw [bind_eq, get_eq]
  simp only
  obtain ⟨h1, h2⟩ := resolveAll_act d k s.relocs s
  rw [h] at h1
  exact Prod.ext h1 (h2 h)

/-- No ascii number shares a byte with another reference. -/
def Separate (d : Dialect) (k : LinkerKind) (ls : Labels) (rs : List (Nat × Reloc)) : Prop :=
  ∀ e ∈ rs, ∀ f ∈ rs, e = f ∨ (e.2.hook = none ∧ f.2.hook = none) ∨ ∀ j, ¬ (Touches d k ls e j ∧ Touches d k ls f j)

theorem act_comm (d : Dialect) (k : LinkerKind) (ls : Labels) (e f : Nat × Reloc) (j : Nat) (b : Byte)
    (h : e = f ∨ (e.2.hook = none ∧ f.2.hook = none) ∨ ∀ j, ¬ (Touches d k ls e j ∧ Touches d k ls f j)) :
    act d k ls f j (act d k ls e j b) = act d k ls e j (act d k ls f j b) := by
  rcases h with rfl | ⟨h1, h2⟩ | h
  · rfl
  · unfold act
    rw [h1, h2]
    simp only [BitVec.or_assoc]
    rw [BitVec.or_comm (contrib d e.1 e.2.size _ j)]
  · by_cases he : Touches d k ls e j
    · have hf : ¬ Touches d k ls f j := fun hf => h j ⟨he, hf⟩
      rw [act_untouched _ _ _ f _ _ hf, act_untouched _ _ _ f _ _ hf]
    · rw [act_untouched _ _ _ e _ _ he, act_untouched _ _ _ e _ _ he]

/-- C36: with ascii numbers, a successful link changes only bytes of binary fields and of
ascii numbers, and keeps the length. -/
theorem C36_touched (d : Dialect) (k : LinkerKind) (hp : d.postLink = pure ()) (s s' : St) (u : Unit)
    (h : link d k s = (.ok u, s')) :
    s'.bytes.length = s.bytes.length ∧
    ∀ j : Nat, (∀ e ∈ s.relocs, ¬ Touches d k s.labels e j) → s'.bytes[j]? = s.bytes[j]? := by
  rw [link_resolve d k hp] at h
  obtain ⟨_, rfl⟩ := resolveLabels_act d k s s' u h
  refine ⟨by simp, fun j hj => ?_⟩
  simp only [List.getElem?_mapIdx]
  have : ∀ (rs : List (Nat × Reloc)) (b : Byte), (∀ e ∈ rs, ¬ Touches d k s.labels e j) → actAll d k s.labels rs j b = b := by
    intro rs
    induction rs with
    | nil => intro b _; rfl
    | cons e rs ih =>
      intro b hr
      show actAll d k s.labels rs j (act d k s.labels e j b) = b
      rw [act_untouched _ _ _ e _ _ (hr e (List.mem_cons_self ..)), ih b fun f hf => hr f (List.mem_cons_of_mem _ hf)]
  cases s.bytes[j]? with
  | none => rfl
  | some b => simp only [Option.map_some, this _ b hj]

/-- C39: the order of the references does not matter, ascii numbers included as long as
they share no byte with another reference. -/
theorem C39_order_ascii (d : Dialect) (k : LinkerKind) (hp : d.postLink = pure ()) (s s' : St) (u : Unit)
    (h : link d k s = (.ok u, s')) (hsep : Separate d k s.labels s.relocs) (rs : List (Nat × Reloc))
    (hperm : s.relocs.Perm rs) : link d k { s with relocs := rs } = (.ok (), { s' with relocs := rs }) := by
  rw [link_resolve d k hp] at h ⊢
  obtain ⟨hn, rfl⟩ := resolveLabels_act d k s s' u h
  rw [resolveLabels_act']
  · simp only
    have : s.bytes.mapIdx (actAll d k s.labels rs) = s.bytes.mapIdx (actAll d k s.labels s.relocs) := by
      congr 1
      funext j b
      exact (hperm.foldl_eq' (fun e he f hf b => act_comm d k s.labels e f j b (hsep e he f hf)) b).symm
    rw [this]
  · simp only
    rw [findSome?_none] at hn ⊢
    exact fun e he => hn e (hperm.mem_iff.2 he)

/-- C39: linking again changes nothing. -/
theorem C39_idempotent_ascii (d : Dialect) (k : LinkerKind) (hp : d.postLink = pure ()) (s s' : St) (u : Unit)
    (h : link d k s = (.ok u, s')) (hsep : Separate d k s.labels s.relocs) : link d k s' = (.ok (), s') := by
  rw [link_resolve d k hp] at h ⊢
  obtain ⟨hn, rfl⟩ := resolveLabels_act d k s s' u h
  rw [resolveLabels_act' _ _ _ (by simpa using hn)]
  simp only
  have : (s.bytes.mapIdx (actAll d k s.labels s.relocs)).mapIdx (actAll d k s.labels s.relocs) =
      s.bytes.mapIdx (actAll d k s.labels s.relocs) := by
    rw [List.mapIdx_mapIdx]
    congr 1
    funext j b
    show actAll d k s.labels s.relocs j (actAll d k s.labels s.relocs j b) = _
    by_cases hex : ∃ e ∈ s.relocs, e.2.hook ≠ none ∧ Touches d k s.labels e j
    · obtain ⟨e, he, hk, ht⟩ := hex
      -- the byte of the ascii number: every reference writes it or leaves it
      obtain ⟨v, hv⟩ : ∃ v, ∀ b, act d k s.labels e j b = v := by
        unfold Touches at ht
        unfold act
        cases hw : e.2.hook with
        | none => exact absurd hw hk
        | some w =>
          rw [hw] at ht
          simp only at ht ⊢
          cases hr : resolveTarget d k s.labels e.2 with
          | error x => rw [hr] at ht; exact ht.elim
          | ok p =>
            rw [hr] at ht
            simp only [overlay] at ht ⊢
            exact ⟨_, fun b => by rw [if_pos ht]⟩
      have hall : ∀ f ∈ s.relocs, (∀ b, act d k s.labels f j b = v) ∨ ∀ b, act d k s.labels f j b = b := by
        intro f hf
        rcases hsep e he f hf with rfl | ⟨h1, _⟩ | h
        · exact .inl hv
        · exact absurd h1 hk
        · exact .inr fun b => act_untouched _ _ _ f _ _ fun hf => h j ⟨ht, hf⟩
      have hfold : ∀ rs : List (Nat × Reloc), (∀ f ∈ rs, f ∈ s.relocs) →
          (∀ b, actAll d k s.labels rs j b = v) ∨ ∀ b, actAll d k s.labels rs j b = b := by
        intro rs
        induction rs with
        | nil => exact fun _ => .inr fun _ => rfl
        | cons f rs ih =>
          intro hm
          rcases ih (fun g hg => hm g (List.mem_cons_of_mem _ hg)) with h | h
          · exact .inl fun b => h _
          · rcases hall f (hm f (List.mem_cons_self ..)) with h' | h'
            · exact .inl fun b => by
                show actAll d k s.labels rs j (act d k s.labels f j b) = v
                rw [h, h']
            · exact .inr fun b => by
                show actAll d k s.labels rs j (act d k s.labels f j b) = b
                rw [h, h']
      rcases hfold s.relocs (fun _ h => h) with h | h
      · rw [h, h]
      · rw [h]
    · have hall : ∀ f ∈ s.relocs, ∃ c, ∀ b, act d k s.labels f j b = b ||| c := by
        intro f hf
        by_cases hk : f.2.hook = none
        · refine ⟨contrib d f.1 f.2.size (storedValue d k s.labels f.2) j, fun b => ?_⟩
          unfold act; rw [hk]
        · refine ⟨0#8, fun b => ?_⟩
          rw [act_untouched _ _ _ f _ _ fun ht => hex ⟨f, hf, hk, ht⟩]
          simp
      have hfold : ∀ rs : List (Nat × Reloc), (∀ f ∈ rs, f ∈ s.relocs) → ∃ c, ∀ b, actAll d k s.labels rs j b = b ||| c := by
        intro rs
        induction rs with
        | nil => exact fun _ => ⟨0#8, fun b => by simp [actAll]⟩
        | cons f rs ih =>
          intro hm
          obtain ⟨c, hc⟩ := ih fun g hg => hm g (List.mem_cons_of_mem _ hg)
          obtain ⟨c', hc'⟩ := hall f (hm f (List.mem_cons_self ..))
          refine ⟨c' ||| c, fun b => ?_⟩
          show actAll d k s.labels rs j (act d k s.labels f j b) = _
          rw [hc, hc', BitVec.or_assoc]
      obtain ⟨c, hc⟩ := hfold s.relocs fun _ h => h
      rw [hc, hc, BitVec.or_assoc, BitVec.or_self]
  rw [this]

/-! ## C42 -/

theorem isDigit_zero : IsDigit 10 0 '0' := ⟨by decide, .inl (by decide)⟩

theorem reads_natStr (n : Nat) : Reads 10 (natStr n) n := by
  induction n using Nat.strongRecOn with
  | _ n ih =>
    unfold natStr at *
    rw [Nat.toDigits_eq_if (by decide)]
    by_cases h : n < 10
    · rw [if_pos h]; exact .one ⟨h, .inl rfl⟩
    · rw [if_neg h]
      have h1 := ih (n / 10) (by omega)
      have h2 : IsDigit 10 (n % 10) (n % 10).digitChar := ⟨Nat.mod_lt _ (by decide), .inl rfl⟩
      have := Reads.snoc h1 h2
      rw [show n / 10 * 10 + n % 10 = n by omega] at this
      exact this

theorem reads_zero_cons {s : Str} {n : Nat} (h : Reads 10 s n) : Reads 10 ('0' :: s) n := by
  induction h with
  | @one c d h =>
    have := Reads.snoc (.one isDigit_zero) h
    simpa using this
  | @snoc s v c d _ hd ih => exact Reads.snoc ih hd

/-- C42: the text is the zero padded decimal numeral. -/
theorem C42_text (w n : Nat) (hw : 0 < w) (hn : n < 10 ^ w) :
    ∃ ds, Reads 10 ds n ∧ ds.length = w ∧ hookText w n = ds.map fun c => BitVec.ofNat 8 c.toNat := by
  have hl : (natStr n).length ≤ w := (Nat.length_toDigits_le_iff (by decide) hw).2 hn
  refine ⟨fmtDec w n, ?_, ?_, rfl⟩
  · show Reads 10 (List.replicate (w - (natStr n).length) '0' ++ natStr n) n
    generalize w - (natStr n).length = m
    induction m with
    | zero => exact reads_natStr n
    | succ m ih =>
      rw [List.replicate_succ]
      exact reads_zero_cons ih
  · show (List.replicate (w - (natStr n).length) '0' ++ natStr n).length = w
    simp; omega

/-- C42: after a successful link an ascii reference to a label at an address of at most `w`
digits that shares no byte with another reference has left the zero padded decimal numeral
of the address in its `w` bytes. -/
theorem C42_label (d : Dialect) (hp : d.postLink = pure ()) (s s' : St) (u : Unit)
    (h : link d .dummy s = (.ok u, s')) (pre post : List (Nat × Reloc)) (a : Nat) (r : Reloc) (w : Nat)
    (hsp : s.relocs = pre ++ (a, r) :: post) (hhook : r.hook = some w) (hw : 0 < w) (hrel : r.relative = 0)
    (hne : r.label ≠ []) (hch : ∀ c ∈ r.label, formulaChar c = false) (l : LabelInfo)
    (hl : s.labels.lookup r.label = some l) (n : Nat) (hn : l.org + l.base = n) (hlt : n < 10 ^ w)
    (hap : ∀ f ∈ pre ++ post, ∀ j, a ≤ j → j < a + w → ¬ Touches d .dummy s.labels f j) :
    ∃ ds, Reads 10 ds n ∧ ds.length = w ∧ window s'.bytes a w = ds.map fun c => BitVec.ofNat 8 c.toNat := by
  obtain ⟨ds, hr, hlen, htext⟩ := C42_text w n hw hlt
  refine ⟨ds, hr, hlen, ?_⟩
  rw [← htext]
  have htl : (hookText w n).length = w := by rw [htext]; simpa using hlen
  rw [link_resolve d .dummy hp] at h
  obtain ⟨herr, rfl⟩ := resolveLabels_act d .dummy s s' u h
  have ht : resolveTarget d .dummy s.labels r = .ok ((n : Int), (n : Int)) := by
    unfold resolveTarget
    have e0 : labelAddress d.sy s.labels r.label = labelRelative d.sy s.labels r.label 0 := rfl
    rw [e0, plain_value d.sy s.labels r.label hne hch, hl, hrel]
    simp only [Option.map_some, Int.sub_zero, hn]
    rfl
  have hfit : a + w ≤ s.bytes.length := by
    rw [findSome?_none] at herr
    have := herr (a, r) (by rw [hsp]; simp)
    unfold refErr at this
    simp only [hhook, ht, htl] at this
    by_cases hc : a + w ≤ s.bytes.length
    · exact hc
    · rw [if_neg hc] at this; simp at this
  apply List.ext_getElem?
  intro i
  rw [window_get]
  by_cases hi : i < w
  · rw [if_pos hi]
    simp only [List.getElem?_mapIdx]
    rw [List.getElem?_eq_getElem (by omega : a + i < s.bytes.length)]
    simp only [Option.map_some]
    have huntouched : ∀ (rs : List (Nat × Reloc)), (∀ f ∈ rs, f ∈ pre ++ post) → ∀ b,
        rs.foldl (fun b e => act d .dummy s.labels e (a + i) b) b = b := by
      intro rs
      induction rs with
      | nil => intro _ b; rfl
      | cons f rs ih =>
        intro hm b
        simp only [List.foldl_cons]
        rw [act_untouched _ _ _ f _ _ (hap f (hm f (List.mem_cons_self ..)) (a + i) (by omega) (by omega))]
        exact ih (fun g hg => hm g (List.mem_cons_of_mem _ hg)) b
    unfold actAll
    rw [hsp, List.foldl_append, List.foldl_cons, huntouched pre (fun f hf => List.mem_append_left _ hf),
      huntouched post (fun f hf => List.mem_append_right _ hf)]
    have : ∀ b, act d .dummy s.labels (a, r) (a + i) b = (hookText w n).getD i 0#8 := by
      intro b
      unfold act
      simp only [hhook, ht, overlay, htl]
      rw [if_pos ⟨by omega, by omega⟩, show a + i - a = i by omega]
    rw [this, List.getD_eq_getElem?_getD, List.getElem?_eq_getElem (by omega : i < (hookText w n).length)]
    rfl
  · rw [if_neg hi, List.getElem?_eq_none (by omega)]

/-- C42: what the directives record and reserve for a label: three zero bytes and an ascii
reference of three digits, respectively five. -/
theorem C42_reserve_byte (d : Dialect) (tok : Str) (s : St) (c : Char) (cs : Str) (ht : tok = c :: cs) (hq : isQuote c = false)
    (hl : parseInteger d.sy s.labels tok 8 false = .ok none) :
    dbToAsciiItem d tok s = (.ok (), { s with
      relocs := dset s.relocs s.bytes.length { label := tok, size := 1, bitsSize := 8, hook := some 3 },
      bytes := s.bytes ++ [0#8, 0#8, 0#8], counter := s.counter + 3 }) := by
  subst ht
  unfold dbToAsciiItem
  rw [bind_eq]
  simp only [firstChar, pure_eq, hq, Bool.false_eq_true, if_false]
  rw [bind_eq]
  simp only [parseIntegerM, hl]
  rw [bind_eq, modify_eq]
  simp [appendBytes, addReloc, modify_eq, List.replicate]

theorem C42_reserve_word (d : Dialect) (tok : Str) (s : St) (c : Char) (cs : Str) (ht : tok = c :: cs) (hq : isQuote c = false)
    (hl : parseInteger d.sy s.labels tok 16 false = .ok none) :
    dwToAsciiItem d tok s = (.ok (), { s with
      relocs := dset s.relocs s.bytes.length { label := tok, size := 2, bitsSize := 16, hook := some 5 },
      bytes := s.bytes ++ [0#8, 0#8, 0#8, 0#8, 0#8], counter := s.counter + 5 }) := by
  subst ht
  unfold dwToAsciiItem
  rw [bind_eq]
  simp only [firstChar, pure_eq, hq, Bool.false_eq_true, if_false]
  rw [bind_eq]
  simp only [parseIntegerM, hl]
  rw [bind_eq, modify_eq]
  simp [appendBytes, addReloc, modify_eq, List.replicate]

/-- C42: a numeric argument is written at once, as the decimal numeral without padding. -/
theorem C42_number (d : Dialect) (tok : Str) (s : St) (c : Char) (cs : Str) (ht : tok = c :: cs) (hq : isQuote c = false)
    (n : Nat) (hl : parseInteger d.sy s.labels tok 8 false = .ok (some (n : Int))) :
    ∃ ds, Reads 10 ds n ∧ (dbToAsciiItem d tok s).1 = .ok () ∧
      (dbToAsciiItem d tok s).2.bytes = s.bytes ++ ds.map fun c => BitVec.ofNat 8 c.toNat := by
  subst ht
  refine ⟨natStr n, reads_natStr n, ?_⟩
  have : dbToAsciiItem d (c :: cs) s = appendBytes ((natStr n).map fun c => BitVec.ofNat 8 c.toNat) s := by
    unfold dbToAsciiItem
    rw [bind_eq]
    simp only [firstChar, pure_eq, hq, Bool.false_eq_true, if_false]
    rw [bind_eq]
    simp only [parseIntegerM, hl]
    rw [bind_eq, lift_eq]
    have : intStr (n : Int) = natStr n := rfl
    rw [this, encodeAscii_map _ (natStr_digits n)]
  rw [this]
  exact ⟨rfl, rfl⟩

/-- C42: the same for `.dw_to_ascii`. -/
theorem C42_number_word (d : Dialect) (tok : Str) (s : St) (c : Char) (cs : Str) (ht : tok = c :: cs) (hq : isQuote c = false)
    (n : Nat) (hl : parseInteger d.sy s.labels tok 16 false = .ok (some (n : Int))) :
    ∃ ds, Reads 10 ds n ∧ (dwToAsciiItem d tok s).1 = .ok () ∧
      (dwToAsciiItem d tok s).2.bytes = s.bytes ++ ds.map fun c => BitVec.ofNat 8 c.toNat := by
  subst ht
  refine ⟨natStr n, reads_natStr n, ?_⟩
  have : dwToAsciiItem d (c :: cs) s = appendBytes ((natStr n).map fun c => BitVec.ofNat 8 c.toNat) s := by
    unfold dwToAsciiItem
    rw [bind_eq]
    simp only [firstChar, pure_eq, hq, Bool.false_eq_true, if_false]
    rw [bind_eq]
    simp only [parseIntegerM, hl]
    rw [bind_eq, lift_eq]
    have : intStr (n : Int) = natStr n := rfl
    rw [this, encodeAscii_map _ (natStr_digits n)]
  rw [this]
  exact ⟨rfl, rfl⟩

/-- The output of a program whose label `end` is at 11: `.db_to_ascii end`, the byte 7 as
`.db_to_ascii 7`, `.dw_to_ascii end` and two bytes with its address. -/
def exAscii : St :=
  { bytes := [0#8, 0#8, 0#8, 0x37#8, 0#8, 0#8, 0#8, 0#8, 0#8, 0#8, 0#8]
    labels := [("end".toList, ⟨11, 0, none⟩)]
    relocs := [(0, { label := "end".toList, size := 1, bitsSize := 8, hook := some 3 }),
      (4, { label := "end".toList, size := 2, bitsSize := 16, hook := some 5 }),
      (9, { label := "end".toList, size := 2, bitsSize := 16 })] }

/-- That is what the directives produce. -/
example : (assemble {} {} 1 ".db_to_ascii end 7\n.dw_to_ascii end\n.dw end\nend:".toList {}).2.bytes = exAscii.bytes ∧
    (assemble {} {} 1 ".db_to_ascii end 7\n.dw_to_ascii end\n.dw end\nend:".toList {}).2.labels = exAscii.labels ∧
    (assemble {} {} 1 ".db_to_ascii end 7\n.dw_to_ascii end\n.dw end\nend:".toList {}).2.relocs.map (fun p => (p.1, p.2.label, p.2.size, p.2.bitsSize, p.2.hook)) =
      exAscii.relocs.map (fun p => (p.1, p.2.label, p.2.size, p.2.bitsSize, p.2.hook)) := by decide +kernel

theorem exAscii_ok : link {} .dummy exAscii = (.ok (), (link {} .dummy exAscii).2) :=
  pair_ok (by decide +kernel)

example : (link {} .dummy exAscii).2.bytes = "0117".toList.map (fun c => BitVec.ofNat 8 c.toNat) ++
    "00011".toList.map (fun c => BitVec.ofNat 8 c.toNat) ++ [11#8, 0#8] := by decide +kernel

theorem exAscii_touches (j : Nat) :
    (Touches {} .dummy exAscii.labels (0, { label := "end".toList, size := 1, bitsSize := 8, hook := some 3 }) j ↔ j < 3) ∧
    (Touches {} .dummy exAscii.labels (4, { label := "end".toList, size := 2, bitsSize := 16, hook := some 5 }) j ↔ 4 ≤ j ∧ j < 9) ∧
    (Touches {} .dummy exAscii.labels (9, { label := "end".toList, size := 2, bitsSize := 16 }) j ↔ 9 ≤ j ∧ j < 11) := by
  have hr : ∀ r : Reloc, r.label = "end".toList → r.relative = 0 → resolveTarget {} .dummy exAscii.labels r = .ok (11, 11) := by
    intro r h1 h2
    unfold resolveTarget
    rw [h1, h2]
    decide +kernel
  have t3 : (hookText 3 11).length = 3 := by decide +kernel
  have t5 : (hookText 5 11).length = 5 := by decide +kernel
  refine ⟨?_, ?_, Iff.rfl⟩
  · simp only [Touches]
    rw [hr _ rfl rfl]
    simp only [t3]
    omega
  · simp only [Touches]
    rw [hr _ rfl rfl]
    simp only [t5]

theorem exAscii_separate : Separate {} .dummy exAscii.labels exAscii.relocs := by
  intro e he f hf
  simp only [exAscii, List.mem_cons, List.not_mem_nil, or_false] at he hf
  have ht := exAscii_touches
  rcases he with rfl | rfl | rfl <;> rcases hf with rfl | rfl | rfl
  all_goals first
    | exact .inl rfl
    | (refine .inr (.inr fun j => ?_)
       rintro ⟨h1, h2⟩
       simp only [(ht j).1, (ht j).2.1, (ht j).2.2] at h1 h2
       omega)

example := C36_touched {} .dummy rfl exAscii _ () exAscii_ok
example := C39_order_ascii {} .dummy rfl exAscii _ () exAscii_ok exAscii_separate exAscii.relocs.reverse (List.reverse_perm _).symm
example := C39_idempotent_ascii {} .dummy rfl exAscii _ () exAscii_ok exAscii_separate

example : ∃ ds, Reads 10 ds 11 ∧ ds.length = 5 ∧
    window (link {} .dummy exAscii).2.bytes 4 5 = ds.map fun c => BitVec.ofNat 8 c.toNat :=
  C42_label {} rfl exAscii _ () exAscii_ok [_] [_] 4 _ 5 rfl rfl (by decide) rfl (by decide) (by decide) ⟨11, 0, none⟩
    (by decide +kernel) 11 (by decide) (by decide) (by
      intro f hf j h1 h2
      simp only [List.cons_append, List.nil_append, List.mem_cons, List.not_mem_nil, or_false] at hf
      have := exAscii_touches j
      rcases hf with rfl | rfl
      · rw [this.1]; omega
      · rw [this.2.2]; omega)

/-- Disagreement: a byte number does not fit its three bytes when the address has four
digits; nothing is reported and the next byte is overwritten. -/
theorem C42_clobbers : (link {} .dummy { bytes := [0#8, 0#8, 0#8, 0x37#8]
                                         labels := [("x".toList, ⟨0, 1000, none⟩)]
                                         relocs := [(0, { label := "x".toList, size := 1, bitsSize := 8, hook := some 3 })] }).2.bytes =
    [0x31#8, 0x30#8, 0x30#8, 0x30#8] := by decide +kernel

/-- ... and two ascii numbers that share bytes make the order of the table matter. -/
theorem C39_overlapping_ascii :
    let r (n : Nat) : Reloc := { label := "x".toList, size := 1, bitsSize := 8, hook := some n }
    let s (rs : List (Nat × Reloc)) : St := { bytes := [0#8, 0#8, 0#8, 0#8], labels := [("x".toList, ⟨0, 7, none⟩)], relocs := rs }
    (link {} .dummy (s [(0, r 3), (1, r 3)])).2.bytes ≠ (link {} .dummy (s [(1, r 3), (0, r 3)])).2.bytes := by decide +kernel

end Necro
