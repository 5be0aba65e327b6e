import Verif.Model.Link
import Verif.Lemmas.Keeps
import Verif.Lemmas.Pack
import Verif.Spec.Link
/-!
# Linking as one bitwise OR
-/

namespace Necro
open Spec
open M (throw get modify lift forEach)

/-- OR the byte `f j` into every position `j`. -/
def orBytes (bs : Bytes) (f : Nat → Byte) : Bytes := bs.mapIdx fun j b => b ||| f j

@[simp] theorem orBytes_length (bs : Bytes) (f : Nat → Byte) : (orBytes bs f).length = bs.length := by
  simp [orBytes]

theorem orBytes_get (bs : Bytes) (f : Nat → Byte) (j : Nat) : (orBytes bs f)[j]? = bs[j]?.map (· ||| f j) := by
  simp [orBytes]

theorem orBytes_orBytes (bs : Bytes) (f g : Nat → Byte) :
    orBytes (orBytes bs f) g = orBytes bs fun j => f j ||| g j := by
  apply List.ext_getElem?
  intro j
  simp only [orBytes_get]
  cases bs[j]? with
  | none => rfl
  | some b => simp [BitVec.or_assoc]

theorem orBytes_zero (bs : Bytes) {f : Nat → Byte} (h : ∀ j, f j = 0#8) : orBytes bs f = bs := by
  apply List.ext_getElem?
  intro j
  rw [orBytes_get, h j]
  cases bs[j]? <;> simp

theorem orBytes_congr (bs : Bytes) {f g : Nat → Byte} (h : ∀ j, f j = g j) : orBytes bs f = orBytes bs g := by
  rw [show f = g from funext h]

theorem modify_or (bs : Bytes) (i : Nat) (v : Byte) :
    bs.modify i (· ||| v) = orBytes bs fun j => if j = i then v else 0#8 := by
  apply List.ext_getElem?
  intro j
  rw [orBytes_get, List.getElem?_modify]
  cases bs[j]? with
  | none => rfl
  | some b =>
    by_cases h : i = j
    · subst h; simp
    · simp [h, Ne.symm h]

/-- The OR of a list of bytes. -/
def orAll : List Byte → Byte
  | [] => 0#8
  | b :: bs => b ||| orAll bs

theorem orAll_zero {l : List Byte} (h : ∀ b ∈ l, b = 0#8) : orAll l = 0#8 := by
  induction l with
  | nil => rfl
  | cons b l ih =>
    simp only [orAll, h b (List.mem_cons_self ..), ih fun c hc => h c (List.mem_cons_of_mem _ hc)]
    rfl

theorem orAll_one {l : List Byte} {v : Byte} (hv : v ∈ l) (h : ∀ b ∈ l, b = v ∨ b = 0#8) : orAll l = v := by
  induction l with
  | nil => cases hv
  | cons b l ih =>
    have hl : ∀ c ∈ l, c = v ∨ c = 0#8 := fun c hc => h c (List.mem_cons_of_mem _ hc)
    have hall : orAll l = v ∨ orAll l = 0#8 := by
      by_cases hm : v ∈ l
      · exact .inl (ih hm hl)
      · refine .inr (orAll_zero fun c hc => ?_)
        rcases hl c hc with rfl | h
        · exact absurd hc hm
        · exact h
    simp only [orAll]
    rcases h b (List.mem_cons_self ..) with rfl | hb
    · rcases hall with h | h <;> rw [h] <;> simp
    · subst hb
      rcases List.mem_cons.1 hv with rfl | hm
      · rcases hall with h | h <;> rw [h] <;> rfl
      · rw [ih hm hl]; simp

theorem orAll_perm {l l' : List Byte} (h : l.Perm l') : orAll l = orAll l' := by
  induction h with
  | nil => rfl
  | cons x _ ih => simp [orAll, ih]
  | swap x y l => simp only [orAll, ← BitVec.or_assoc, BitVec.or_comm x y]
  | trans _ _ ih1 ih2 => rw [ih1, ih2]

/-- A loop of byte ORs. -/
theorem orLoop_ok {α : Type} (pos : α → Nat) (val : α → Byte) (l : List α) : ∀ s : St,
    (∀ i ∈ l, pos i < s.bytes.length) →
    forEach l (fun i => orByte (pos i) (val i)) s =
      (.ok (), { s with bytes := orBytes s.bytes fun j => orAll (l.map fun i => if j = pos i then val i else 0#8) }) := by
  induction l with
  | nil =>
    intro s _
    have : orBytes s.bytes (fun j => orAll (([] : List α).map fun i => if j = pos i then val i else 0#8)) = s.bytes :=
      orBytes_zero _ fun _ => rfl
    rw [this]; rfl
  | cons x l ih =>
    intro s h
    have hx : orByte (pos x) (val x) s =
        (.ok (), { s with bytes := orBytes s.bytes fun j => if j = pos x then val x else 0#8 }) := by
      unfold orByte
      rw [if_pos (h x (List.mem_cons_self ..)), modify_or]
    show (orByte (pos x) (val x) >>= fun _ => forEach l fun i => orByte (pos i) (val i)) s = _
    rw [bind_eq, hx]
    simp only
    rw [ih _ (by intro i hi; simpa using h i (List.mem_cons_of_mem _ hi))]
    simp only [orBytes_orBytes]
    rfl

theorem orLoop_result {α : Type} (pos : α → Nat) (val : α → Byte) (l : List α) : ∀ s : St,
    (forEach l (fun i => orByte (pos i) (val i)) s).1 =
      if ∀ i ∈ l, pos i < s.bytes.length then .ok () else .error .indexError := by
  induction l with
  | nil => intro s; simp; rfl
  | cons x l ih =>
    intro s
    show ((orByte (pos x) (val x) >>= fun _ => forEach l fun i => orByte (pos i) (val i)) s).1 = _
    rw [bind_eq]
    unfold orByte
    by_cases hx : pos x < s.bytes.length
    · rw [if_pos hx]
      simp only
      have e := ih { s with bytes := s.bytes.modify (pos x) (· ||| val x) }
      simp only [List.length_modify] at e
      unfold orByte at e
      rw [e]
      simp [hx]
    · rw [if_neg hx]
      simp [hx]

/-- `m` only ORs bytes into the positions of `W`. -/
def OrStep (W : Nat → Prop) (m : M Unit) : Prop :=
  ∀ s, ∃ f : Nat → Byte, (∀ j, ¬ W j → f j = 0#8) ∧ (m s).2 = { s with bytes := orBytes s.bytes f }

theorem orStep_refl {W : Nat → Prop} {m : M Unit} (h : ∀ s, (m s).2 = s) : OrStep W m := fun s =>
  ⟨fun _ => 0#8, fun _ _ => rfl, by rw [h s, orBytes_zero _ fun _ => rfl]⟩

theorem orStep_forEach {α : Type} {W : Nat → Prop} {f : α → M Unit} {l : List α} (h : ∀ x ∈ l, OrStep W (f x)) :
    OrStep W (forEach l f) := by
  induction l with
  | nil => exact orStep_refl fun _ => rfl
  | cons x l ih =>
    intro s
    show ∃ g, _ ∧ ((f x >>= fun _ => forEach l f) s).2 = _
    rw [bind_eq]
    obtain ⟨g, hg, e⟩ := h x (List.mem_cons_self ..) s
    cases hx : f x s with
    | mk r s1 =>
    rw [hx] at e
    simp only at e
    subst e
    cases r with
    | error e => exact ⟨g, hg, rfl⟩
    | ok u =>
      obtain ⟨g', hg', e'⟩ := ih (fun y hy => h y (List.mem_cons_of_mem _ hy)) { s with bytes := orBytes s.bytes g }
      refine ⟨fun j => g j ||| g' j, fun j hj => by show g j ||| g' j = _; rw [hg j hj, hg' j hj]; rfl, ?_⟩
      simp only
      rw [e']
      simp only [orBytes_orBytes]

theorem orStep_orByte (W : Nat → Prop) (i : Nat) (v : Byte) (h : W i) : OrStep W (orByte i v) := by
  intro s
  unfold orByte
  split
  · refine ⟨fun j => if j = i then v else 0#8, fun j hj => ?_, by rw [modify_or]⟩
    have : j ≠ i := fun e => hj (e ▸ h)
    simp [this]
  · exact ⟨fun _ => 0#8, fun _ _ => rfl, by rw [orBytes_zero _ fun _ => rfl]⟩

/-- Position of byte `i` (least significant first) of a field. -/
def fieldPos (d : Dialect) (address size i : Nat) : Nat :=
  if d.bigEndian then address + ((size - 1) - i) else address + i

def fieldByte (value : Int) (i : Nat) : Byte := BitVec.ofInt 8 (pyAnd (pyShr value (8 * i)) 0xFF)

theorem writeField_eq (d : Dialect) (address size : Nat) (value : Int) :
    writeField d address size value =
      forEach (List.range size) fun i => orByte (fieldPos d address size i) (fieldByte value i) := by
  unfold writeField fieldPos fieldByte
  congr 1
  funext i
  cases d.bigEndian <;> rfl

theorem fieldPos_window (d : Dialect) (a size i : Nat) (h : i < size) :
    a ≤ fieldPos d a size i ∧ fieldPos d a size i < a + size := by
  unfold fieldPos; split <;> omega

/-- What a field contributes to position `j`. -/
def contrib (d : Dialect) (a size : Nat) (v : Int) (j : Nat) : Byte :=
  if a ≤ j ∧ j < a + size then fieldByte v (if d.bigEndian then size - 1 - (j - a) else j - a) else 0#8

theorem contrib_eq (d : Dialect) (a size : Nat) (v : Int) (j : Nat) :
    orAll ((List.range size).map fun i => if j = fieldPos d a size i then fieldByte v i else 0#8) = contrib d a size v j := by
  unfold contrib
  by_cases h : a ≤ j ∧ j < a + size
  · rw [if_pos h]
    have hpos : ∀ i, i < size → (j = fieldPos d a size i ↔ i = if d.bigEndian then size - 1 - (j - a) else j - a) := by
      intro i hi
      unfold fieldPos
      split <;> omega
    apply orAll_one
    · rw [List.mem_map]
      have hi : (if d.bigEndian then size - 1 - (j - a) else j - a) < size := by split <;> omega
      refine ⟨_, List.mem_range.2 hi, ?_⟩
      rw [if_pos ((hpos _ hi).2 rfl)]
    · intro b hb
      rw [List.mem_map] at hb
      obtain ⟨i, hi, rfl⟩ := hb
      have := hpos i (List.mem_range.1 hi)
      by_cases he : j = fieldPos d a size i
      · rw [if_pos he, ← this.1 he]; exact .inl rfl
      · rw [if_neg he]; exact .inr rfl
  · rw [if_neg h]
    apply orAll_zero
    intro b hb
    rw [List.mem_map] at hb
    obtain ⟨i, hi, rfl⟩ := hb
    have := fieldPos_window d a size i (List.mem_range.1 hi)
    rw [if_neg (by omega)]

theorem fits_iff (d : Dialect) (a size len : Nat) :
    (∀ i ∈ List.range size, fieldPos d a size i < len) ↔ size = 0 ∨ a + size ≤ len := by
  constructor
  · intro h
    by_cases h0 : size = 0
    · exact .inl h0
    · refine .inr ?_
      cases hb : d.bigEndian with
      | true =>
        have := h 0 (List.mem_range.2 (by omega))
        simp only [fieldPos, hb, if_true] at this
        omega
      | false =>
        have := h (size - 1) (List.mem_range.2 (by omega))
        simp only [fieldPos, hb, Bool.false_eq_true, if_false] at this
        omega
  · intro h i hi
    have := fieldPos_window d a size i (List.mem_range.1 hi)
    rw [List.mem_range] at hi
    omega

theorem writeField_ok (d : Dialect) (a size : Nat) (v : Int) (s : St) (h : size = 0 ∨ a + size ≤ s.bytes.length) :
    writeField d a size v s = (.ok (), { s with bytes := orBytes s.bytes (contrib d a size v) }) := by
  rw [writeField_eq, orLoop_ok _ _ _ s ((fits_iff d a size s.bytes.length).2 h)]
  rw [orBytes_congr _ fun j => contrib_eq d a size v j]

theorem writeField_result (d : Dialect) (a size : Nat) (v : Int) (s : St) :
    (writeField d a size v s).1 = if size = 0 ∨ a + size ≤ s.bytes.length then .ok () else .error .indexError := by
  rw [writeField_eq, orLoop_result]
  have := fits_iff d a size s.bytes.length
  by_cases h : size = 0 ∨ a + size ≤ s.bytes.length
  · rw [if_pos h, if_pos (this.2 h)]
  · rw [if_neg h, if_neg (fun x => h (this.1 x))]

theorem orStep_writeField (d : Dialect) (W : Nat → Prop) (a size : Nat) (v : Int)
    (h : ∀ j, a ≤ j → j < a + size → W j) : OrStep W (writeField d a size v) := by
  rw [writeField_eq]
  refine orStep_forEach fun i hi => orStep_orByte W _ _ ?_
  have := fieldPos_window d a size i (List.mem_range.1 hi)
  exact h _ this.1 this.2

/-- The value a reference stores. -/
def linkValue (d : Dialect) (k : LinkerKind) (ls : Labels) (r : Reloc) : Except Err Int :=
  match resolveTarget d k ls r with
  | .error e => .error e
  | .ok (a, t) => encodeTarget r a t

theorem resolveOne_eq (d : Dialect) (k : LinkerKind) (e : Nat × Reloc) (hh : e.2.hook = none) (s : St) :
    resolveOne d k e s = match linkValue d k s.labels e.2 with
      | .error x => (.error x, s)
      | .ok v => writeField d e.1 e.2.size v s := by
  unfold resolveOne linkValue
  rw [bind_eq, get_eq]
  simp only
  rw [bind_eq, lift_eq]
  cases resolveTarget d k s.labels e.2 with
  | error x => rfl
  | ok p =>
    simp only [hh]
    rw [bind_eq, lift_eq]
    cases encodeTarget e.2 p.1 p.2 <;> rfl

/-- What is wrong with a reference, if anything. -/
def linkErr (d : Dialect) (k : LinkerKind) (ls : Labels) (len : Nat) (e : Nat × Reloc) : Option Err :=
  match linkValue d k ls e.2 with
  | .error x => some x
  | .ok _ => if e.2.size = 0 ∨ e.1 + e.2.size ≤ len then none else some .indexError

theorem resolveOne_result (d : Dialect) (k : LinkerKind) (e : Nat × Reloc) (hh : e.2.hook = none) (s : St) :
    (resolveOne d k e s).1 = match linkErr d k s.labels s.bytes.length e with
      | some x => .error x
      | none => .ok () := by
  rw [resolveOne_eq d k e hh]
  unfold linkErr
  cases linkValue d k s.labels e.2 with
  | error x => rfl
  | ok v =>
    simp only
    rw [writeField_result]
    split <;> simp [*]

theorem orStep_resolveOne (d : Dialect) (k : LinkerKind) (W : Nat → Prop) (e : Nat × Reloc) (hh : e.2.hook = none)
    (h : ∀ j, Covers e j → W j) : OrStep W (resolveOne d k e) := by
  intro s
  rw [resolveOne_eq d k e hh]
  cases linkValue d k s.labels e.2 with
  | error x => exact ⟨fun _ => 0#8, fun _ _ => rfl, by rw [orBytes_zero _ fun _ => rfl]⟩
  | ok v => exact orStep_writeField d W e.1 e.2.size v (fun j h1 h2 => h j ⟨h1, h2⟩) s

theorem resolveAll_result (d : Dialect) (k : LinkerKind) (l : List (Nat × Reloc)) (hh : ∀ e ∈ l, e.2.hook = none) :
    ∀ s, (forEach l (resolveOne d k) s).1 =
      match l.findSome? (linkErr d k s.labels s.bytes.length) with
      | some x => .error x
      | none => .ok () := by
  induction l with
  | nil => intro s; rfl
  | cons e l ih =>
    intro s
    show ((resolveOne d k e >>= fun _ => forEach l (resolveOne d k)) s).1 = _
    rw [bind_eq]
    have h1 := resolveOne_result d k e (hh e (List.mem_cons_self ..)) s
    obtain ⟨f, _, hf⟩ := orStep_resolveOne d k (fun _ => True) e (hh e (List.mem_cons_self ..)) (fun _ _ => trivial) s
    cases hx : resolveOne d k e s with
    | mk r s1 =>
    rw [hx] at h1 hf
    simp only at h1 hf
    subst hf
    simp only [List.findSome?_cons]
    cases he : linkErr d k s.labels s.bytes.length e with
    | some x => rw [he] at h1; subst h1; rfl
    | none =>
      rw [he] at h1
      subst h1
      simp only
      rw [ih (fun y hy => hh y (List.mem_cons_of_mem _ hy))]
      simp

/-- The value stored by a reference (0 if there is none). -/
def storedValue (d : Dialect) (k : LinkerKind) (ls : Labels) (r : Reloc) : Int :=
  match linkValue d k ls r with
  | .ok v => v
  | .error _ => 0

/-- What all references together contribute to position `j`. -/
def linkMask (d : Dialect) (k : LinkerKind) (ls : Labels) (l : List (Nat × Reloc)) (j : Nat) : Byte :=
  orAll (l.map fun e => contrib d e.1 e.2.size (storedValue d k ls e.2) j)

theorem resolveAll_ok (d : Dialect) (k : LinkerKind) (l : List (Nat × Reloc)) (hh : ∀ e ∈ l, e.2.hook = none) :
    ∀ s, (∀ e ∈ l, linkErr d k s.labels s.bytes.length e = none) →
      forEach l (resolveOne d k) s = (.ok (), { s with bytes := orBytes s.bytes (linkMask d k s.labels l) }) := by
  induction l with
  | nil =>
    intro s _
    have : orBytes s.bytes (linkMask d k s.labels []) = s.bytes := orBytes_zero _ fun _ => rfl
    rw [this]; rfl
  | cons e l ih =>
    intro s h
    show (resolveOne d k e >>= fun _ => forEach l (resolveOne d k)) s = _
    have h1 := h e (List.mem_cons_self ..)
    rw [bind_eq, resolveOne_eq d k e (hh e (List.mem_cons_self ..))]
    unfold linkErr at h1
    cases hv : linkValue d k s.labels e.2 with
    | error x => rw [hv] at h1; simp at h1
    | ok v =>
      rw [hv] at h1
      simp only at h1 ⊢
      have hf : e.2.size = 0 ∨ e.1 + e.2.size ≤ s.bytes.length := by
        by_cases hf : e.2.size = 0 ∨ e.1 + e.2.size ≤ s.bytes.length
        · exact hf
        · rw [if_neg hf] at h1; simp at h1
      rw [writeField_ok d _ _ _ s hf]
      simp only
      rw [ih (fun y hy => hh y (List.mem_cons_of_mem _ hy)) _ (by
        intro y hy; simpa using h y (List.mem_cons_of_mem _ hy))]
      simp only [orBytes_orBytes]
      rw [orBytes_congr]
      intro j
      simp only [linkMask, List.map_cons, orAll, storedValue, hv]

theorem findSome?_none {α β : Type} {f : α → Option β} {l : List α} : l.findSome? f = none ↔ ∀ x ∈ l, f x = none := by
  simp

/-- A successful `_resolve_labels` without hooks. -/
theorem resolveLabels_ok (d : Dialect) (k : LinkerKind) (s s' : St) (u : Unit) (hh : ∀ e ∈ s.relocs, e.2.hook = none)
    (h : resolveLabels d k s = (.ok u, s')) :
    (∀ e ∈ s.relocs, linkErr d k s.labels s.bytes.length e = none) ∧
    s' = { s with bytes := orBytes s.bytes (linkMask d k s.labels s.relocs) } := by
  unfold resolveLabels at h
  rw [bind_eq, get_eq] at h
  simp only at h
  have h1 := resolveAll_result d k s.relocs hh s
  rw [h] at h1
  have h2 : ∀ e ∈ s.relocs, linkErr d k s.labels s.bytes.length e = none := by
    rw [← findSome?_none]
    cases hf : s.relocs.findSome? (linkErr d k s.labels s.bytes.length) with
    | none => rfl
    | some x => rw [hf] at h1; cases h1
  refine ⟨h2, ?_⟩
  rw [resolveAll_ok d k s.relocs hh s h2] at h
  injection h with _ h
  exact h.symm

/-! ## windows read as numbers -/

theorem window_get (bs : Bytes) (a size i : Nat) : (window bs a size)[i]? = if i < size then bs[a + i]? else none := by
  simp only [window, List.getElem?_take, List.getElem?_drop]

theorem window_length {bs : Bytes} {a size : Nat} (h : a + size ≤ bs.length) : (window bs a size).length = size := by
  simp [window]; omega

theorem ofLE_testBit (bs : Bytes) (i : Nat) : (ofLE bs).testBit i = (bs.getD (i / 8) 0#8).getLsbD (i % 8) := by
  induction bs generalizing i with
  | nil => simp [ofLE]
  | cons b bs ih =>
    have hb := b.isLt
    have e : ofLE (b :: bs) = 2 ^ 8 * ofLE bs + b.toNat := by simp only [ofLE]; omega
    rw [e, Nat.testBit_two_pow_mul_add _ (by simpa using hb)]
    by_cases h : i < 8
    · rw [if_pos h]
      have h0 : i / 8 = 0 := by omega
      have h1 : i % 8 = i := by omega
      rw [h0, h1]
      rfl
    · rw [if_neg h, ih]
      have h0 : i / 8 = (i - 8) / 8 + 1 := by omega
      have h1 : (i - 8) % 8 = i % 8 := by omega
      rw [h0, h1]
      simp

theorem fieldByte_bit (v : Int) (i j : Nat) (hj : j < 8) : (fieldByte v i).getLsbD j = bit v (8 * i + j) := by
  unfold fieldByte
  have hm := pyAnd_mask (pyShr v (8 * i)) 8
  have e0 : ((2 ^ 8 - 1 : Nat) : Int) = 0xFF := by decide
  rw [e0] at hm
  rw [hm]
  have hp : pyShr v (8 * i) % 2 ^ 8 = (((pyShr v (8 * i) % 2 ^ 8).toNat : Nat) : Int) := by
    have : 0 ≤ pyShr v (8 * i) % 2 ^ 8 := Int.emod_nonneg _ (by decide)
    omega
  have hb := bit_emod_pow (pyShr v (8 * i)) 8 j
  rw [bit_pyShr] at hb
  rw [hp, bit_natCast] at hb
  rw [hp, BitVec.ofInt_natCast, BitVec.getLsbD_ofNat, hb]
  simp [hj, Nat.add_comm]

/-- The contribution of a field to its own window, least significant byte first, holds the
value. -/
theorem ofBytes_orWindow (d : Dialect) (bs : Bytes) (f : Nat → Byte) (a size : Nat) (v : Int) (hl : a + size ≤ bs.length)
    (hf : ∀ j, a ≤ j → j < a + size → f j = contrib d a size v j) (i : Nat) (hi : i < 8 * size) :
    (ofBytes d.bigEndian (window (orBytes bs f) a size)).testBit i =
      ((ofBytes d.bigEndian (window bs a size)).testBit i || bit v i) := by
  have hi8 : i / 8 < size := by omega
  have hm8 : i % 8 < 8 := Nat.mod_lt _ (by decide)
  have hi' : 8 * (i / 8) + i % 8 = i := by omega
  unfold ofBytes
  cases hbe : d.bigEndian with
  | false =>
    simp only [Bool.false_eq_true, if_false]
    rw [ofLE_testBit, ofLE_testBit]
    simp only [List.getD_eq_getElem?_getD, window_get, if_pos hi8, orBytes_get]
    rw [hf _ (by omega) (by omega)]
    have hx : a + i / 8 < bs.length := by omega
    rw [List.getElem?_eq_getElem hx]
    simp only [Option.map_some, Option.getD_some, BitVec.getLsbD_or]
    congr 1
    unfold contrib
    rw [if_pos ⟨by omega, by omega⟩, hbe]
    simp only [Bool.false_eq_true, if_false]
    rw [show a + i / 8 - a = i / 8 by omega, fieldByte_bit _ _ _ hm8, hi']
  | true =>
    simp only [if_true]
    rw [ofBE_eq, ofBE_eq, ofLE_testBit, ofLE_testBit]
    have l1 : (window (orBytes bs f) a size).length = size := window_length (by simpa using hl)
    have l2 : (window bs a size).length = size := window_length hl
    simp only [List.getD_eq_getElem?_getD]
    rw [List.getElem?_reverse (by rw [l1]; exact hi8), List.getElem?_reverse (by rw [l2]; exact hi8), l1, l2]
    simp only [window_get, if_pos (show size - 1 - i / 8 < size by omega), orBytes_get]
    rw [hf _ (by omega) (by omega)]
    have hx : a + (size - 1 - i / 8) < bs.length := by omega
    rw [List.getElem?_eq_getElem hx]
    simp only [Option.map_some, Option.getD_some, BitVec.getLsbD_or]
    congr 1
    unfold contrib
    rw [if_pos ⟨by omega, by omega⟩, hbe]
    simp only [if_true]
    rw [show size - 1 - (a + (size - 1 - i / 8) - a) = i / 8 by omega, fieldByte_bit _ _ _ hm8, hi']

theorem ofBytes_lt (be : Bool) (bs : Bytes) : ofBytes be bs < 2 ^ (8 * bs.length) := by
  have e : (256 : Nat) = 2 ^ 8 := by decide
  unfold ofBytes
  cases be with
  | false => have := ofLE_lt bs; rw [e, ← Nat.pow_mul] at this; simpa using this
  | true =>
    rw [if_pos rfl, ofBE_eq]
    have := ofLE_lt bs.reverse
    rw [e, ← Nat.pow_mul, List.length_reverse] at this
    exact this

end Necro
