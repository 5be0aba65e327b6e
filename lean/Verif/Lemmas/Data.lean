import Verif.Lemmas.Lookup
import Verif.Spec.Data
import Verif.Props.Utils
import Verif.Props.Numbers

namespace Necro
open Spec
open M (throw get modify lift forEach times)

theorem quoted_iff (c : Char) (r : Str) : Quoted (c :: r) ↔ isQuote c = true := by
  simp [Quoted, isQuote]

theorem encodeAscii_ok {s : Str} {out : Bytes} (h : encodeAscii s = .ok out) : TextBytes 1 s out := by
  unfold TextBytes
  simp only
  induction s generalizing out with
  | nil => simp [encodeAscii] at h; subst h; simp
  | cons c s ih =>
    simp only [encodeAscii] at h
    split at h
    · rename_i hc
      split at h
      · rename_i r hr
        injection h with h; subst h
        obtain ⟨h1, h2⟩ := ih hr
        refine ⟨by intro x hx; simp at hx; rcases hx with rfl | hx; exact hc; exact h1 x hx, ?_⟩
        simp [h2]; omega
      · simp at h
    · simp at h

theorem encodeAscii_iff (s : Str) : (∃ out, encodeAscii s = .ok out) ↔ ∀ c ∈ s, c.toNat < 128 := by
  induction s with
  | nil => simp [encodeAscii]
  | cons c s ih =>
    simp only [encodeAscii, List.mem_cons, forall_eq_or_imp, ← ih]
    split
    · rename_i hc
      cases h : encodeAscii s <;> simp [hc]
    · rename_i hc; simp [hc]

theorem leBytes_two (n : Nat) (h : n < 65536) : ∃ a b, leBytes 2 (n : Int) = [a, b] ∧ ofLE [a, b] = n := by
  have h1 := leBytes_length 2 (n : Int)
  have h2 := ofLE_leBytes 2 (n : Int)
  match hl : leBytes 2 (n : Int), h1 with
  | [a, b], _ =>
    refine ⟨a, b, rfl, ?_⟩
    rw [hl] at h2
    simp at h2
    omega

theorem leBytes_four (n : Nat) (h : n < 4294967296) :
    ∃ a b c d, leBytes 4 (n : Int) = [a, b, c, d] ∧ ofLE [a, b, c, d] = n := by
  have h1 := leBytes_length 4 (n : Int)
  have h2 := ofLE_leBytes 4 (n : Int)
  match hl : leBytes 4 (n : Int), h1 with
  | [a, b, c, d], _ =>
    refine ⟨a, b, c, d, rfl, ?_⟩
    rw [hl] at h2
    simp at h2
    omega

theorem char_lt (c : Char) : c.toNat < 0x110000 := by
  have := c.valid
  simp only [UInt32.isValidChar, Nat.isValidChar] at this
  simp only [Char.toNat]
  omega

theorem utf16_spec (s : Str) : Utf16 s (s.flatMap utf16Units) := by
  induction s with
  | nil => exact .nil
  | cons c s ih =>
    simp only [List.flatMap_cons]
    unfold utf16Units
    by_cases hc : c.toNat < 0x10000
    · rw [if_pos hc]
      obtain ⟨a, b, he, hv⟩ := leBytes_two c.toNat hc
      rw [he]
      exact .unit c a b s _ hv ih
    · rw [if_neg hc]
      simp only
      have hb := char_lt c
      obtain ⟨a, b, he, hv⟩ := leBytes_two (0xD800 + (c.toNat - 0x10000) / 1024) (by omega)
      obtain ⟨x, y, he', hv'⟩ := leBytes_two (0xDC00 + (c.toNat - 0x10000) % 1024) (by omega)
      rw [he, he']
      exact .pair c a b x y s _ (by omega) (by omega) (by omega) (by omega) (by omega) ih

theorem utf32_spec (s : Str) : Utf32 s (s.flatMap fun c => leBytes 4 (c.toNat : Int)) := by
  induction s with
  | nil => exact .nil
  | cons c s ih =>
    simp only [List.flatMap_cons]
    have hb := char_lt c
    obtain ⟨a, b, x, y, he, hv⟩ := leBytes_four c.toNat (by omega)
    rw [he]
    exact .unit c a b x y s _ hv ih

theorem encodeUtf16_ok (s : Str) : TextBytes 2 s (encodeUtf16 s) := ⟨_, rfl, utf16_spec s⟩
theorem encodeUtf32_ok (s : Str) : TextBytes 4 s (encodeUtf32 s) := ⟨_, rfl, utf32_spec s⟩

theorem chunks_one {α : Type} (n : Nat) (l : List α) (h : l.length = n) : chunks n 1 l = [l] := by
  simp [chunks, ← h]

/-- A packer applied to a value that fits. -/
theorem pack_one {f : List (Option Int) → Except Err Bytes} {bits : Nat} {be : Bool}
    (hf : IsPacker f bits be false) (v : Int) (h0 : 0 ≤ v) (h1 : v < 2 ^ bits) :
    ∃ out, f [some v] = .ok out ∧ out.length = bits / 8 ∧ (ofBytes be out : Int) = v := by
  obtain ⟨out, h2, h3, h4⟩ := hf [some v]
  refine ⟨out, h2, by simpa using h3, ?_⟩
  simp only [List.length_cons, List.length_nil] at h3 h4
  rw [chunks_one _ _ (by simpa using h3)] at h4
  simp [decodeField, fieldValue] at h4
  rw [h4]
  exact Int.emod_eq_of_lt h0 h1

/-- The common shape of `dbItem`, `dwItem` and `ddItem`. -/
def dataItem (d : Dialect) (size : Nat) (enc : Str → Except Err Bytes) (pack : Int → Except Err Bytes) (tok : Str) : M Unit := do
  let c ← firstChar tok
  if isQuote c then
    let blob ← lift (enc (unquote tok))
    appendBytes blob
  else
    let value ← parseIntegerOrLabelM d { label := tok, size := size, bitsSize := 8 * size }
    let blob ← lift (pack value)
    appendBytes blob

theorem dbItem_eq (d : Dialect) : dbItem d = dataItem d 1 encodeAscii (fun v => packByte [some v]) := rfl
theorem dwItem_eq (d : Dialect) : dwItem d = dataItem d 2 (fun s => .ok (encodeUtf16 s))
    (fun v => if d.bigEndian then packBe16u [some v] else packLe16u [some v]) := rfl
theorem ddItem_eq (d : Dialect) : ddItem d = dataItem d 4 (fun s => .ok (encodeUtf32 s))
    (fun v => if d.bigEndian then packBe32u [some v] else packLe32u [some v]) := rfl

/-- The state after one item. -/
def placeItem (size : Nat) (s : St) (tok : Str) (out : Bytes) (isRef : Bool) : St :=
  { s with
    bytes := s.bytes ++ out
    counter := s.counter + out.length
    relocs := if isRef then dset s.relocs s.bytes.length { label := tok, size := size, bitsSize := 8 * size } else s.relocs }

theorem ofLE_replicate (n : Nat) : ofLE (List.replicate n 0#8) = 0 := by
  induction n with
  | zero => rfl
  | succ n ih => simp [List.replicate_succ, ofLE, ih]

theorem ofLE_inj : ∀ (a b : Bytes), a.length = b.length → ofLE a = ofLE b → a = b
  | [], [], _, _ => rfl
  | [], _ :: _, h, _ => by simp at h
  | _ :: _, [], h, _ => by simp at h
  | x :: a, y :: b, h, he => by
    simp only [ofLE] at he
    have h1 := x.isLt
    have h2 := y.isLt
    have hx : x.toNat = y.toNat := by omega
    have hr : ofLE a = ofLE b := by omega
    have := ofLE_inj a b (by simpa using h) hr
    rw [this, BitVec.eq_of_toNat_eq hx]

theorem ofBytes_inj (be : Bool) (a b : Bytes) (h : a.length = b.length) (he : ofBytes be a = ofBytes be b) : a = b := by
  unfold ofBytes at he
  cases be with
  | false => exact ofLE_inj a b h (by simpa using he)
  | true =>
    simp only [if_true, ofBE_eq] at he
    have := ofLE_inj a.reverse b.reverse (by simpa using h) he
    simpa using this

structure GoodPack (d : Dialect) (size : Nat) (enc : Str → Except Err Bytes) (pack : Int → Except Err Bytes) : Prop where
  text : ∀ s out, enc s = .ok out → TextBytes size s out
  num : ∀ v : Int, 0 ≤ v → v < 2 ^ (8 * size) →
    ∃ out, pack v = .ok out ∧ out.length = size ∧ (ofBytes d.bigEndian out : Int) = v
  pos : 1 ≤ 8 * size

theorem goodPack_db (d : Dialect) : GoodPack d 1 encodeAscii (fun v => packByte [some v]) where
  text := fun _ _ h => encodeAscii_ok h
  num := fun v h0 h1 => by
    obtain ⟨out, h2, h3, h4⟩ := pack_one C01_pack_byte v h0 h1
    refine ⟨out, h2, h3, ?_⟩
    rw [← h4]
    match out, h3 with
    | [x], _ => cases d.bigEndian <;> simp [ofBytes, ofBE, ofLE]
  pos := by decide

theorem goodPack_dw (d : Dialect) : GoodPack d 2 (fun s => .ok (encodeUtf16 s))
    (fun v => if d.bigEndian then packBe16u [some v] else packLe16u [some v]) where
  text := fun s out h => by injection h with h; subst h; exact encodeUtf16_ok s
  num := fun v h0 h1 => by
    cases d.bigEndian
    · exact pack_one C01_pack_le16u v h0 h1
    · exact pack_one C01_pack_be16u v h0 h1
  pos := by decide

theorem goodPack_dd (d : Dialect) : GoodPack d 4 (fun s => .ok (encodeUtf32 s))
    (fun v => if d.bigEndian then packBe32u [some v] else packLe32u [some v]) where
  text := fun s out h => by injection h with h; subst h; exact encodeUtf32_ok s
  num := fun v h0 h1 => by
    cases d.bigEndian
    · exact pack_one C01_pack_le32u v h0 h1
    · exact pack_one C01_pack_be32u v h0 h1
  pos := by decide

/-- Every outcome of one data item. -/
theorem dataItem_cases {d : Dialect} {size : Nat} {enc : Str → Except Err Bytes} {pack : Int → Except Err Bytes}
    (g : GoodPack d size enc pack) (tok : Str) (s : St) :
    (∃ out isRef, DataItem size d.bigEndian (fun t => parseInteger d.sy s.labels t (8 * size) false) tok out isRef ∧
      dataItem d size enc pack tok s = (.ok (), placeItem size s tok out isRef)) ∨
    (∃ e, dataItem d size enc pack tok s = (.error e, s) ∧
      (tok = [] ∨ (Quoted tok ∧ enc (unquote tok) = .error e) ∨
        (¬ Quoted tok ∧ parseInteger d.sy s.labels tok (8 * size) false = .error e))) := by
  cases tok with
  | nil => right; exact ⟨.indexError, rfl, .inl rfl⟩
  | cons c r =>
    unfold dataItem
    have hf : firstChar (c :: r) s = (.ok c, s) := rfl
    rw [bind_eq, hf]
    simp only
    cases hq : isQuote c with
    | true =>
      simp only [if_true]
      rw [bind_eq, lift_eq]
      cases he : enc (unquote (c :: r)) with
      | error e => right; exact ⟨e, rfl, .inr (.inl ⟨(quoted_iff c r).2 hq, rfl⟩)⟩
      | ok out =>
        left
        exact ⟨out, false, .text _ _ ((quoted_iff c r).2 hq) (g.text _ _ he), rfl⟩
    | false =>
      have hnq : ¬ Quoted (c :: r) := by rw [quoted_iff, hq]; simp
      simp only [Bool.false_eq_true, if_false]
      rw [bind_eq]
      have e : parseIntegerOrLabelM d { label := c :: r, size := size, bitsSize := 8 * size } false s =
          match parseInteger d.sy s.labels (c :: r) (8 * size) false with
          | .error e => (.error e, s)
          | .ok (some v) => (.ok v, s)
          | .ok none => (.ok 0, addReloc s { label := c :: r, size := size, bitsSize := 8 * size }) := rfl
      rw [e]
      cases hp : parseInteger d.sy s.labels (c :: r) (8 * size) false with
      | error e => right; exact ⟨e, rfl, .inr (.inr ⟨hnq, rfl⟩)⟩
      | ok o =>
        left
        cases o with
        | some v =>
          have hv := C13_unsigned _ _ _ _ _ g.pos hp
          obtain ⟨out, h1, h2, h3⟩ := g.num v hv.1 hv.2
          refine ⟨out, false, .num _ _ v (by simp) hnq hp h2 h3, ?_⟩
          simp only [bind_eq, lift_eq, h1]
          rfl
        | none =>
          obtain ⟨out, h1, h2, h3⟩ := g.num 0 (by decide) (Int.pow_pos (by decide))
          have hz : out = List.replicate size 0#8 := by
            apply ofBytes_inj d.bigEndian _ _ (by simp [h2])
            have : ofBytes d.bigEndian (List.replicate size 0#8) = 0 := by
              unfold ofBytes; rw [ofBE_eq]; simp [ofLE_replicate]
            rw [this]; omega
          subst hz
          refine ⟨_, true, .ref _ (by simp) hnq hp, ?_⟩
          simp only [bind_eq, lift_eq, h1]
          rfl

/-- The state after a row of items. -/
def placeItems (size : Nat) (s : St) (items : List (Str × Bytes × Bool)) : St :=
  items.foldl (fun s i => placeItem size s i.1 i.2.1 i.2.2) s

theorem forEach_cons {α : Type} (x : α) (l : List α) (f : α → M Unit) (s : St) : forEach (x :: l) f s =
    match f x s with
    | (.ok _, s') => forEach l f s'
    | (.error e, s') => (.error e, s') := by
  rw [forEach, M.bind]
  rcases f x s with ⟨_ | _, _⟩ <;> rfl

theorem forEach_nil {α : Type} (f : α → M Unit) (s : St) : forEach [] f s = (.ok (), s) := rfl

theorem dataRow_ok {d : Dialect} {size : Nat} {enc : Str → Except Err Bytes} {pack : Int → Except Err Bytes}
    (g : GoodPack d size enc pack) (args : List Str) : ∀ (s s' : St),
    forEach args (dataItem d size enc pack) s = (.ok (), s') →
    ∃ items : List (Str × Bytes × Bool), items.map Prod.fst = args ∧
      (∀ i ∈ items, DataItem size d.bigEndian (fun t => parseInteger d.sy s.labels t (8 * size) false) i.1 i.2.1 i.2.2) ∧
      s' = placeItems size s items := by
  induction args with
  | nil => intro s s' h; simp [forEach_nil] at h; exact ⟨[], rfl, by simp, h.symm⟩
  | cons a args ih =>
    intro s s' h
    rw [forEach_cons] at h
    rcases dataItem_cases g a s with ⟨out, r, hi, he⟩ | ⟨e, he, _⟩
    · rw [he] at h
      obtain ⟨items, h1, h2, h3⟩ := ih _ _ h
      refine ⟨(a, out, r) :: items, by simp [h1], ?_, h3⟩
      intro i hm
      simp at hm
      rcases hm with rfl | hm
      · exact hi
      · exact h2 i hm
    · rw [he] at h; simp at h

theorem dataRow_succeeds {d : Dialect} {size : Nat} {enc : Str → Except Err Bytes} {pack : Int → Except Err Bytes}
    (g : GoodPack d size enc pack) (args : List Str) : ∀ (s : St),
    (∀ a ∈ args, a ≠ [] ∧ (Quoted a → ∃ out, enc (unquote a) = .ok out) ∧
      (¬ Quoted a → ∃ o, parseInteger d.sy s.labels a (8 * size) false = .ok o)) →
    ∃ s', forEach args (dataItem d size enc pack) s = (.ok (), s') := by
  induction args with
  | nil => intro s _; exact ⟨s, rfl⟩
  | cons a args ih =>
    intro s h
    rw [forEach_cons]
    rcases dataItem_cases g a s with ⟨out, r, hi, he⟩ | ⟨e, he, h'⟩
    · rw [he]
      exact ih _ fun b hb => h b (by simp [hb])
    · have ha := h a (by simp)
      rcases h' with h' | ⟨hq, h'⟩ | ⟨hq, h'⟩
      · exact absurd h' ha.1
      · obtain ⟨out, ho⟩ := ha.2.1 hq; rw [ho] at h'; simp at h'
      · obtain ⟨out, ho⟩ := ha.2.2 hq; rw [ho] at h'; simp at h'

theorem placeItems_bytes (size : Nat) (items : List (Str × Bytes × Bool)) : ∀ s,
    (placeItems size s items).bytes = s.bytes ++ items.flatMap (·.2.1) := by
  induction items with
  | nil => intro s; simp [placeItems]
  | cons i items ih =>
    intro s
    have : placeItems size s (i :: items) = placeItems size (placeItem size s i.1 i.2.1 i.2.2) items := rfl
    rw [this, ih]
    simp [placeItem]

theorem placeItems_relocs (size : Nat) (items : List (Str × Bytes × Bool)) : ∀ s,
    (placeItems size s items).relocs = (itemRefs size s.bytes.length items).foldl (fun t p => dset t p.1 p.2) s.relocs := by
  induction items with
  | nil => intro s; simp [placeItems, itemRefs]
  | cons i items ih =>
    intro s
    obtain ⟨tok, out, r⟩ := i
    have : placeItems size s ((tok, out, r) :: items) = placeItems size (placeItem size s tok out r) items := rfl
    rw [this, ih]
    have hb : (placeItem size s tok out r).bytes.length = s.bytes.length + out.length := by simp [placeItem]
    rw [hb]
    cases r <;> simp [itemRefs, placeItem]

theorem placeItems_rest (size : Nat) (items : List (Str × Bytes × Bool)) : ∀ s,
    placeItems size s items = { s with
      bytes := (placeItems size s items).bytes
      counter := s.counter + ((placeItems size s items).bytes.length - s.bytes.length)
      relocs := (placeItems size s items).relocs } := by
  induction items with
  | nil => intro s; simp [placeItems]
  | cons i items ih =>
    intro s
    have : placeItems size s (i :: items) = placeItems size (placeItem size s i.1 i.2.1 i.2.2) items := rfl
    rw [this, ih]
    simp only [placeItem, List.length_append]
    congr 1
    omega

end Necro
