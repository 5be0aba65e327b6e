import Verif.Lemmas.Finish
/-!
# Tile conversion: helper lemmas
-/

namespace Necro
open Spec
open M (throw get modify lift forEach)

/-- The lists have the same length and corresponding items are related. -/
inductive Matched (R : α → β → Prop) : List α → List β → Prop
  | nil : Matched R [] []
  | cons {a : α} {b : β} {l : List α} {m : List β} : R a b → Matched R l m → Matched R (a :: l) (b :: m)

/-- The pixels of the row are in range. -/
def RowOk (limit : Int) (px : Nat → Int) (l : List Nat) : Prop := ∀ x ∈ l, 0 ≤ px x ∧ px x ≤ limit

theorem rowLoop_fail {limit : Int} {fs : List (Int → Int)} {px : Nat → Int} : ∀ {l : List Nat} {acc : List Int},
    ¬ RowOk limit px l → rowLoop limit fs px l acc = .error (.platform "InvalidPaletteEntry")
  | [], _, h => absurd (fun _ hx => nomatch hx) h
  | x :: l, acc, h => by
    unfold rowLoop
    by_cases hx : 0 ≤ px x ∧ px x ≤ limit
    · rw [if_pos hx]
      refine rowLoop_fail fun hl => h fun y hy => ?_
      rcases List.mem_cons.1 hy with rfl | hy
      · exact hx
      · exact hl y hy
    · rw [if_neg hx]

theorem rowLoop_ok {limit : Int} {fs : List (Int → Int)} {px : Nat → Int} : ∀ {l : List Nat} {acc : List Int},
    RowOk limit px l → acc.length = fs.length →
    ∃ r, rowLoop limit fs px l acc = .ok r ∧ r.length = fs.length ∧
      ∀ (k : Nat) (f : Int → Int), fs[k]? = some f → ∀ i : Nat,
        bit (r.getD k 0) i = (bit (acc.getD k 0) i || l.any fun x => bit (pyShl (f (px x)) (7 - x)) i)
  | [], acc, _, ha => ⟨acc, rfl, ha, fun k f _ i => by simp⟩
  | x :: l, acc, h, ha => by
    unfold rowLoop
    rw [if_pos (h x (List.mem_cons_self ..))]
    obtain ⟨r, h1, h2, h3⟩ := rowLoop_ok (fs := fs) (l := l)
      (acc := List.zipWith (fun b f => pyOr b (pyShl (f (px x)) (7 - x))) acc fs)
      (fun y hy => h y (List.mem_cons_of_mem _ hy)) (by simp [ha])
    refine ⟨r, h1, h2, fun k f hk i => ?_⟩
    rw [h3 k f hk i]
    have hkl : k < acc.length := by rw [ha]; exact (List.getElem?_eq_some_iff.1 hk).1
    have e : (List.zipWith (fun b f => pyOr b (pyShl (f (px x)) (7 - x))) acc fs).getD k 0 =
        pyOr (acc.getD k 0) (pyShl (f (px x)) (7 - x)) := by
      simp [List.getD, List.getElem?_zipWith, hk, List.getElem?_eq_getElem hkl]
    rw [e, bit_pyOr, List.any_cons, Bool.or_assoc]

/-- A plane takes one bit out of every pixel in range. -/
def IsPlane (limit : Int) (f : Int → Int) : Prop := ∀ v, 0 ≤ v → v ≤ limit → f v = 0 ∨ f v = 1

theorem bit_bool {v : Int} (h : v = 0 ∨ v = 1) (i : Nat) : bit v i = (decide (v = 1) && decide (i = 0)) := by
  rcases h with rfl | rfl
  · simp [bit_zero]
  · have h := bit_mask 1 i
    have e : ((2 ^ 1 - 1 : Nat) : Int) = 1 := by decide
    rw [e] at h
    rw [h]
    simp

theorem range_of_bits {v : Int} (h : ∀ i, 8 ≤ i → bit v i = false) : 0 ≤ v ∧ v < 256 := by
  have e : v = v % 2 ^ 8 := by
    apply bit_ext
    intro i
    rw [bit_emod_pow]
    by_cases hi : i < 8
    · simp [hi]
    · simp [hi, h i (by omega)]
  omega

/-- What the plane bytes of a row are. -/
structure RowSpec (fs : List (Int → Int)) (px : Nat → Int) (r : List Int) : Prop where
  length : r.length = fs.length
  range : ∀ v ∈ r, 0 ≤ v ∧ v < 256
  bits : ∀ (k : Nat) (f : Int → Int), fs[k]? = some f → ∀ x, x < 8 → bit (r.getD k 0) (7 - x) = decide (f (px x) = 1)

theorem rowPlanes_fail {limit : Int} {fs : List (Int → Int)} {img : Image} {cx cy y : Nat}
    (h : ¬ RowOk limit (fun x => img.pixel (cx * 8 + x) (cy * 8 + y)) (List.range 8)) :
    rowPlanes limit fs img cx cy y = .error (.platform "InvalidPaletteEntry") := rowLoop_fail h

theorem rowPlanes_ok {limit : Int} {fs : List (Int → Int)} {img : Image} {cx cy y : Nat} (hf : ∀ f ∈ fs, IsPlane limit f)
    (h : RowOk limit (fun x => img.pixel (cx * 8 + x) (cy * 8 + y)) (List.range 8)) :
    ∃ r, rowPlanes limit fs img cx cy y = .ok r ∧ RowSpec fs (fun x => img.pixel (cx * 8 + x) (cy * 8 + y)) r := by
  unfold rowPlanes
  generalize hpx : (fun x => img.pixel (cx * 8 + x) (cy * 8 + y)) = px at h ⊢
  obtain ⟨r, h1, h2, h3⟩ := rowLoop_ok (fs := fs) (acc := fs.map fun _ => 0) h (by simp)
  have hbit : ∀ (k : Nat) (f : Int → Int), fs[k]? = some f → ∀ i : Nat,
      bit (r.getD k 0) i = (List.range 8).any fun x => decide (f (px x) = 1) && decide (i = 7 - x) := by
    intro k f hk i
    rw [h3 k f hk i]
    have e0 : ((fs.map fun _ => (0 : Int))).getD k 0 = 0 := by
      simp [List.getD, hk]
    rw [e0, bit_zero, Bool.false_or]
    rw [Bool.eq_iff_iff, List.any_eq_true, List.any_eq_true]
    have hp : IsPlane limit f := hf f (List.mem_of_getElem? hk)
    have hx : ∀ x ∈ List.range 8, bit (pyShl (f (px x)) (7 - x)) i = (decide (f (px x) = 1) && decide (i = 7 - x)) := by
      intro x hx
      rw [bit_pyShl, bit_bool (hp _ (h x hx).1 (h x hx).2)]
      by_cases hi : i = 7 - x
      · simp [hi]
      · by_cases hle : 7 - x ≤ i
        · simp [hi, show ¬ (i - (7 - x) = 0) by omega]
        · simp [hi, hle]
    constructor
    · rintro ⟨x, hm, hb⟩
      exact ⟨x, hm, by rw [← hx x hm]; exact hb⟩
    · rintro ⟨x, hm, hb⟩
      exact ⟨x, hm, by rw [hx x hm]; exact hb⟩
  refine ⟨r, h1, h2, ?_, ?_⟩
  · intro v hv
    obtain ⟨k, hk⟩ := List.getElem?_of_mem hv
    have hkl : k < fs.length := by rw [← h2]; exact (List.getElem?_eq_some_iff.1 hk).1
    have e := hbit k _ (List.getElem?_eq_getElem hkl)
    have er : r.getD k 0 = v := by simp [List.getD, hk]
    rw [er] at e
    refine range_of_bits fun i hi => ?_
    rw [e, List.any_eq_false]
    intro x _
    simp [show ¬ i = 7 - x by omega]
  · intro k f hk x hx
    rw [hbit k f hk, Bool.eq_iff_iff, List.any_eq_true]
    constructor
    · rintro ⟨z, hz, hb⟩
      simp only [Bool.and_eq_true, decide_eq_true_eq, List.mem_range] at hb hz ⊢
      rw [show x = z by omega]
      exact hb.1
    · intro hb
      exact ⟨x, List.mem_range.2 hx, by simpa using hb⟩

/-- The rows of a list of rows are in range. -/
theorem cellRows_ok {limit : Int} {fs : List (Int → Int)} {img : Image} {cx cy : Nat} (hf : ∀ f ∈ fs, IsPlane limit f) :
    ∀ {ys : List Nat}, (∀ y ∈ ys, RowOk limit (fun x => img.pixel (cx * 8 + x) (cy * 8 + y)) (List.range 8)) →
    ∃ rows, cellRows limit fs img cx cy ys = .ok rows ∧
      Matched (fun y r => RowSpec fs (fun x => img.pixel (cx * 8 + x) (cy * 8 + y)) r) ys rows
  | [], _ => ⟨[], rfl, .nil⟩
  | y :: ys, h => by
    obtain ⟨r, h1, h2⟩ := rowPlanes_ok (fs := fs) hf (h y (List.mem_cons_self ..))
    obtain ⟨rows, h3, h4⟩ := cellRows_ok (ys := ys) hf fun z hz => h z (List.mem_cons_of_mem _ hz)
    refine ⟨r :: rows, ?_, .cons h2 h4⟩
    simp only [cellRows, h1, h3]

theorem cellRows_fail {limit : Int} {fs : List (Int → Int)} {img : Image} {cx cy : Nat} (hf : ∀ f ∈ fs, IsPlane limit f) :
    ∀ {ys : List Nat}, ¬ (∀ y ∈ ys, RowOk limit (fun x => img.pixel (cx * 8 + x) (cy * 8 + y)) (List.range 8)) →
    cellRows limit fs img cx cy ys = .error (.platform "InvalidPaletteEntry")
  | [], h => absurd (fun _ hy => nomatch hy) h
  | y :: ys, h => by
    by_cases hy : RowOk limit (fun x => img.pixel (cx * 8 + x) (cy * 8 + y)) (List.range 8)
    · obtain ⟨r, h1, _⟩ := rowPlanes_ok (fs := fs) hf hy
      have := cellRows_fail (ys := ys) hf fun hz => h fun z hm => by
        rcases List.mem_cons.1 hm with rfl | hm
        · exact hy
        · exact hz z hm
      simp only [cellRows, h1, this]
    · simp only [cellRows, rowPlanes_fail hy]

theorem pyBytes_ok : ∀ {l : List Int}, (∀ v ∈ l, 0 ≤ v ∧ v < 256) → pyBytes l = .ok (l.map (BitVec.ofInt 8))
  | [], _ => rfl
  | v :: l, h => by
    simp only [pyBytes, pyBytes_ok fun w hw => h w (List.mem_cons_of_mem _ hw), if_pos (h v (List.mem_cons_self ..)), List.map_cons]

theorem joinRows_ok : ∀ {rows : List (List Int)}, (∀ r ∈ rows, ∀ v ∈ r, 0 ≤ v ∧ v < 256) →
    joinRows rows = .ok (rows.flatMap fun r => r.map (BitVec.ofInt 8))
  | [], _ => rfl
  | r :: rows, h => by
    simp only [joinRows, pyBytes_ok (h r (List.mem_cons_self ..)),
      joinRows_ok fun q hq => h q (List.mem_cons_of_mem _ hq), List.flatMap_cons]

theorem planeBit_ofInt {v : Int} (h : 0 ≤ v ∧ v < 256) (x : Nat) (hx : x < 8) :
    planeBit (BitVec.ofInt 8 v) x = (bit v (7 - x)).toNat := by
  have e : v = ((v.toNat : Nat) : Int) := by omega
  rw [e, planeBit, BitVec.ofInt_natCast, BitVec.getLsbD_ofNat, bit_natCast]
  simp [show 7 - x < 8 by omega]

theorem flatMap_index {g : α → List β} {n : Nat} : ∀ {l : List α}, (∀ x ∈ l, (g x).length = n) → ∀ (j i : Nat), i < n →
    (l.flatMap g)[j * n + i]? = l[j]?.bind fun x => (g x)[i]?
  | [], _, j, i, _ => by simp
  | x :: l, h, 0, i, hi => by
    rw [List.flatMap_cons, Nat.zero_mul, Nat.zero_add, List.getElem?_append_left (by rw [h x (List.mem_cons_self ..)]; exact hi)]
    rfl
  | x :: l, h, j + 1, i, hi => by
    have hx := h x (List.mem_cons_self ..)
    rw [List.flatMap_cons, List.getElem?_append_right (by rw [hx, Nat.succ_mul]; omega), hx,
      show (j + 1) * n + i - n = j * n + i by rw [Nat.succ_mul]; omega,
      flatMap_index (fun y hy => h y (List.mem_cons_of_mem _ hy)) j i hi]
    rfl

theorem flatMap_length {g : α → List β} {n : Nat} : ∀ {l : List α}, (∀ x ∈ l, (g x).length = n) →
    (l.flatMap g).length = l.length * n
  | [], _ => by simp
  | x :: l, h => by
    rw [List.flatMap_cons, List.length_append, h x (List.mem_cons_self ..),
      flatMap_length fun y hy => h y (List.mem_cons_of_mem _ hy), List.length_cons, Nat.succ_mul]
    omega

/-- All the pixels of a cell are in range. -/
def CellOk (limit : Int) (img : Image) (cx cy : Nat) : Prop :=
  ∀ x y, x < 8 → y < 8 → 0 ≤ img.pixel (cx * 8 + x) (cy * 8 + y) ∧ img.pixel (cx * 8 + x) (cy * 8 + y) ≤ limit

theorem cellOk_rows {limit : Int} {img : Image} {cx cy : Nat} : CellOk limit img cx cy ↔
    ∀ y ∈ List.range 8, RowOk limit (fun x => img.pixel (cx * 8 + x) (cy * 8 + y)) (List.range 8) := by
  constructor
  · intro h y hy x hx
    exact h x y (List.mem_range.1 hx) (List.mem_range.1 hy)
  · intro h x y hx hy
    exact h y (List.mem_range.2 hy) x (List.mem_range.2 hx)

theorem matched_get {R : α → β → Prop} {l : List α} {m : List β} (h : Matched R l m) (j : Nat) {a : α} (ha : l[j]? = some a) :
    ∃ b, m[j]? = some b ∧ R a b := by
  induction h generalizing j with
  | nil => simp at ha
  | cons hr _ ih =>
    cases j with
    | zero =>
      simp only [List.getElem?_cons_zero, Option.some.injEq] at ha
      subst ha
      exact ⟨_, rfl, hr⟩
    | succ j =>
      simp only [List.getElem?_cons_succ] at ha ⊢
      exact ih j ha

theorem matched_mem {R : α → β → Prop} {l : List α} {m : List β} (h : Matched R l m) {b : β} (hb : b ∈ m) :
    ∃ a, R a b := by
  induction h with
  | nil => cases hb
  | cons hr _ ih =>
    rcases List.mem_cons.1 hb with rfl | hb
    · exact ⟨_, hr⟩
    · exact ih hb

theorem matched_length {R : α → β → Prop} {l : List α} {m : List β} (h : Matched R l m) : m.length = l.length := by
  induction h with
  | nil => rfl
  | cons _ _ ih => simp [ih]

/-- The planes of a row are adjacent: byte `n * y + k` holds plane `k` of row `y`. -/
theorem cellInterleaved_ok {limit : Int} {fs : List (Int → Int)} {img : Image} {cx cy : Nat} (hf : ∀ f ∈ fs, IsPlane limit f)
    (h : CellOk limit img cx cy) :
    ∃ t, cellInterleaved limit fs img cx cy = .ok t ∧ t.length = 8 * fs.length ∧
      ∀ (k : Nat) (f : Int → Int), fs[k]? = some f → ∀ x y, x < 8 → y < 8 →
        planeBit (t.getD (fs.length * y + k) 0) x = if f (img.pixel (cx * 8 + x) (cy * 8 + y)) = 1 then 1 else 0 := by
  obtain ⟨rows, h1, h2⟩ := cellRows_ok (fs := fs) hf (cellOk_rows.1 h)
  have hr : ∀ r ∈ rows, r.length = fs.length ∧ ∀ v ∈ r, 0 ≤ v ∧ v < 256 := by
    intro r hm
    obtain ⟨y, hs⟩ := matched_mem h2 hm
    exact ⟨hs.length, hs.range⟩
  have hlen : ∀ r ∈ rows, (r.map (BitVec.ofInt 8)).length = fs.length := by
    intro r hm
    rw [List.length_map]
    exact (hr r hm).1
  refine ⟨rows.flatMap fun r => r.map (BitVec.ofInt 8), ?_, ?_, ?_⟩
  · unfold cellInterleaved
    rw [h1]
    exact joinRows_ok fun r hm => (hr r hm).2
  · rw [flatMap_length hlen, matched_length h2, List.length_range]
  · intro k f hk x y hx hy
    have hkl : k < fs.length := (List.getElem?_eq_some_iff.1 hk).1
    have hyr : (List.range 8)[y]? = some y := by rw [List.getElem?_range hy]
    obtain ⟨r, hry, hs⟩ := matched_get h2 y hyr
    have e := flatMap_index hlen y k hkl
    rw [Nat.mul_comm y] at e
    have hkr : k < r.length := by rw [hs.length]; exact hkl
    have hb := hs.bits k f hk x hx
    have hrg := hs.range (r[k]'hkr) (List.getElem_mem ..)
    have er : r.getD k 0 = r[k]'hkr := by simp [List.getD, List.getElem?_eq_getElem hkr]
    rw [er] at hb
    have et : (rows.flatMap fun r => r.map (BitVec.ofInt 8)).getD (fs.length * y + k) 0 = BitVec.ofInt 8 (r[k]'hkr) := by
      simp only [List.getD, e, hry, Option.bind_some, List.getElem?_map, List.getElem?_eq_getElem hkr, Option.map_some, Option.getD_some]
    rw [et, planeBit_ofInt hrg x hx, hb]
    by_cases hc : f (img.pixel (cx * 8 + x) (cy * 8 + y)) = 1 <;> simp [hc]

theorem cellInterleaved_fail {limit : Int} {fs : List (Int → Int)} {img : Image} {cx cy : Nat} (hf : ∀ f ∈ fs, IsPlane limit f)
    (h : ¬ CellOk limit img cx cy) : cellInterleaved limit fs img cx cy = .error (.platform "InvalidPaletteEntry") := by
  unfold cellInterleaved
  rw [cellRows_fail hf fun hc => h (cellOk_rows.2 hc)]

/-- A conversion of cells into `size` bytes that can be read back. -/
structure Converts (convert : Image → Nat → Nat → Except Err Bytes) (limit : Int) (size : Nat)
    (pixel : Bytes → Nat → Nat → Nat) : Prop where
  ok : ∀ img cx cy, CellOk limit img cx cy → ∃ t, convert img cx cy = .ok t ∧ t.length = size ∧
    ∀ x y, x < 8 → y < 8 → (pixel t x y : Int) = img.pixel (cx * 8 + x) (cy * 8 + y)
  fail : ∀ img cx cy, ¬ CellOk limit img cx cy → convert img cx cy = .error (.platform "InvalidPaletteEntry")

theorem two_planes {v : Int} (h0 : 0 ≤ v) (h1 : v ≤ 3) :
    (((if pyAnd v 1 = 1 then 1 else 0) + 2 * (if pyShr v 1 = 1 then 1 else 0) : Nat) : Int) = v := by
  rcases (by omega : v = 0 ∨ v = 1 ∨ v = 2 ∨ v = 3) with rfl | rfl | rfl | rfl <;> decide

theorem gameboyPlanes_planes : ∀ f ∈ gameboyPlanes, IsPlane 3 f := by
  intro f hf v h0 h1
  simp only [gameboyPlanes, List.mem_cons, List.not_mem_nil, or_false] at hf
  rcases (by omega : v = 0 ∨ v = 1 ∨ v = 2 ∨ v = 3) with rfl | rfl | rfl | rfl <;>
    rcases hf with rfl | rfl <;> decide

theorem smsPlanes_planes : ∀ f ∈ smsPlanes, IsPlane 15 f := by
  intro f hf v h0 h1
  simp only [smsPlanes, List.mem_cons, List.not_mem_nil, or_false] at hf
  have hv : v ∈ (List.range 16).map fun n : Nat => (n : Int) :=
    List.mem_map.2 ⟨v.toNat, List.mem_range.2 (by omega), by omega⟩
  clear h0 h1
  rcases hf with rfl | rfl | rfl | rfl <;> revert v <;> decide

theorem four_planes {v : Int} (h0 : 0 ≤ v) (h1 : v ≤ 15) :
    (((if pyAnd v 1 = 1 then 1 else 0) + 2 * (if pyAnd (pyShr v 1) 1 = 1 then 1 else 0) +
      4 * (if pyAnd (pyShr v 2) 1 = 1 then 1 else 0) + 8 * (if pyAnd (pyShr v 3) 1 = 1 then 1 else 0) : Nat) : Int) = v := by
  have : v ∈ (List.range 16).map fun n : Nat => (n : Int) :=
    List.mem_map.2 ⟨v.toNat, List.mem_range.2 (by omega), by omega⟩
  clear h0 h1
  revert v
  decide

theorem gameboy_converts : Converts (cellInterleaved 3 gameboyPlanes) 3 16 gbPixel := by
  refine ⟨fun img cx cy h => ?_, fun img cx cy h => cellInterleaved_fail gameboyPlanes_planes h⟩
  obtain ⟨t, h1, h2, h3⟩ := cellInterleaved_ok gameboyPlanes_planes h
  refine ⟨t, h1, h2, fun x y hx hy => ?_⟩
  have hr := h x y hx hy
  have e0 := h3 0 _ rfl x y hx hy
  have e1 := h3 1 _ rfl x y hx hy
  have hl : gameboyPlanes.length = 2 := rfl
  rw [hl] at e0 e1
  unfold gbPixel
  rw [e1, show 2 * y = 2 * y + 0 from rfl, e0]
  exact two_planes hr.1 hr.2

theorem sms_converts : Converts (cellInterleaved 15 smsPlanes) 15 32 smsPixel := by
  refine ⟨fun img cx cy h => ?_, fun img cx cy h => cellInterleaved_fail smsPlanes_planes h⟩
  obtain ⟨t, h1, h2, h3⟩ := cellInterleaved_ok smsPlanes_planes h
  refine ⟨t, h1, h2, fun x y hx hy => ?_⟩
  have hr := h x y hx hy
  have e0 := h3 0 _ rfl x y hx hy
  have e1 := h3 1 _ rfl x y hx hy
  have e2 := h3 2 _ rfl x y hx hy
  have e3 := h3 3 _ rfl x y hx hy
  have hl : smsPlanes.length = 4 := rfl
  rw [hl] at e0 e1 e2 e3
  unfold smsPixel
  rw [e1, e2, e3, show 4 * y = 4 * y + 0 from rfl, e0]
  exact four_planes hr.1 hr.2

theorem toNat_decide (p : Prop) [Decidable p] : (decide p).toNat = if p then 1 else 0 := by
  by_cases h : p <;> simp [h]

theorem nes_converts : Converts nesCell 3 16 nesPixel := by
  have hp : ∀ f ∈ nesPlanes, IsPlane 3 f := gameboyPlanes_planes
  refine ⟨fun img cx cy h => ?_, fun img cx cy h => ?_⟩
  · obtain ⟨rows, h1, h2⟩ := cellRows_ok hp (cellOk_rows.1 h)
    have hl : rows.length = 8 := by rw [matched_length h2, List.length_range]
    have hk : ∀ k f, nesPlanes[k]? = some f → ∀ r ∈ rows, 0 ≤ r.getD k 0 ∧ r.getD k 0 < 256 := by
      intro k f hk r hm
      obtain ⟨y, hs⟩ := matched_mem h2 hm
      have hkr : k < r.length := by rw [hs.length]; exact (List.getElem?_eq_some_iff.1 hk).1
      have := hs.range (r[k]'hkr) (List.getElem_mem ..)
      simpa [List.getD, List.getElem?_eq_getElem hkr] using this
    have hb : ∀ k f, nesPlanes[k]? = some f → pyBytes (rows.map fun r => r.getD k 0) =
        .ok ((rows.map fun r => r.getD k 0).map (BitVec.ofInt 8)) := by
      intro k f hf
      refine pyBytes_ok fun v hv => ?_
      obtain ⟨r, hm, rfl⟩ := List.mem_map.1 hv
      exact hk k f hf r hm
    refine ⟨(rows.map fun r => r.getD 0 0).map (BitVec.ofInt 8) ++ (rows.map fun r => r.getD 1 0).map (BitVec.ofInt 8), ?_, ?_, ?_⟩
    · simp only [nesCell, h1, hb 0 _ rfl, hb 1 _ rfl]
    · simp [hl]
    · intro x y hx hy
      have hr := h x y hx hy
      have hyr : (List.range 8)[y]? = some y := by rw [List.getElem?_range hy]
      obtain ⟨r, hry, hs⟩ := matched_get h2 y hyr
      have hm : r ∈ rows := List.mem_of_getElem? hry
      unfold nesPixel
      have e0 : ((rows.map fun r => r.getD 0 0).map (BitVec.ofInt 8) ++ (rows.map fun r => r.getD 1 0).map (BitVec.ofInt 8)).getD y 0 =
          BitVec.ofInt 8 (r.getD 0 0) := by
        simp only [List.getD]
        rw [List.getElem?_append_left (by simp [hl]; omega), List.getElem?_map, List.getElem?_map, hry]
        rfl
      have e1 : ((rows.map fun r => r.getD 0 0).map (BitVec.ofInt 8) ++ (rows.map fun r => r.getD 1 0).map (BitVec.ofInt 8)).getD (8 + y) 0 =
          BitVec.ofInt 8 (r.getD 1 0) := by
        simp only [List.getD]
        rw [List.getElem?_append_right (by simp [hl])]
        simp only [List.length_map, hl, Nat.add_sub_cancel_left, List.getElem?_map, hry]
        rfl
      rw [e0, e1, planeBit_ofInt (hk 0 _ rfl r hm) x hx, planeBit_ofInt (hk 1 _ rfl r hm) x hx,
        hs.bits 0 _ rfl x hx, hs.bits 1 _ rfl x hx]
      have := two_planes hr.1 hr.2
      rw [toNat_decide, toNat_decide]
      exact this
  · unfold nesCell
    rw [cellRows_fail hp fun hc => h (cellOk_rows.2 hc)]

end Necro
