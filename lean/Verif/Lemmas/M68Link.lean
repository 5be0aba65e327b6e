import Verif.Lemmas.Owned
import Verif.Props.Mc68000
/-!
# The words of a linked 68000 instruction
-/

namespace Necro
open Spec

/-- The words `w v` are what a reference of this kind leaves in the output for the value `v`. -/
def Fillable (r : Reloc) (w : Int → List Nat) : Prop :=
  r.filter = none ∧ r.size = 2 * (w 0).length ∧ 0 < r.size ∧ ((r.bits = none ∧ ∀ v, bytesOf (w v) = wordBytes true r.size v) ∨
    (r.bits = some (7, 0) ∧ r.size = 2 ∧ ∃ w0 : Nat, w0 % 256 = 0 ∧ w0 + 256 ≤ 2 ^ 16 ∧ ∀ v, w v = [w0 + (v % 256).toNat]))

theorem fillable_one (r : Reloc) (h : r.filter = none) (hs : r.size = 2) (hb : r.bits = none) : Fillable r fun v => [(v % 2 ^ 16).toNat] :=
  ⟨h, by simp [hs], by omega, .inl ⟨hb, fun v => by rw [hs, bytesOf_one]⟩⟩

theorem fillable_two (r : Reloc) (h : r.filter = none) (hs : r.size = 4) (hb : r.bits = none) :
    Fillable r fun v => [(v / 65536 % 2 ^ 16).toNat, (v % 2 ^ 16).toNat] :=
  ⟨h, by simp [hs], by omega, .inl ⟨hb, fun v => by rw [hs, bytesOf_two]⟩⟩

theorem fillable_low (r : Reloc) (h : r.filter = none) (hs : r.size = 2) (hb : r.bits = some (7, 0)) (w0 : Nat) (h0 : w0 % 256 = 0) (h1 : w0 + 256 ≤ 2 ^ 16) :
    Fillable r fun v => [w0 + (v % 256).toNat] :=
  ⟨h, by simp [hs], by omega, .inr ⟨hb, hs, w0, h0, h1, fun _ => rfl⟩⟩

theorem EaForm.slot_fill {f : EaForm} {sz : M68Size} {pc : Int} {off : Nat} {p : M68Slot} (hv : f.Valid) (h : f.slot sz pc off = some p) :
    p.2.1.offset = 2 + off ∧ Fillable p.2.1 (f.ext sz) ∧ (p.1 = .pc → f.mode ∈ m68Alterable ∧ p.2.1.relative = pc + 2 + off) ∧
      (p.1 ≠ .pc → p.2.1.relative = 0) ∧ p.2.1.alignment = 1 := by
  have hi : ∀ x : M68Index, x.n < 8 → ∀ r : Reloc, r.filter = none → r.size = 2 → r.bits = some (7, 0) → Fillable r fun v => [idxWord x v] := by
    intro x hx r h1 h2 h3
    exact fillable_low r h1 h2 h3 ((if x.addr then 32768 else 0) + x.n * 4096 + (if x.long then 2048 else 0))
      (by split <;> split <;> omega) (by split <;> split <;> omega)
  cases f <;> simp only [slot, Option.some.injEq, reduceCtorEq] at h <;> subst h
  · exact ⟨rfl, fillable_one _ rfl rfl rfl, nofun, fun _ => rfl, rfl⟩
  · exact ⟨rfl, hi _ hv.2 _ rfl rfl rfl, nofun, fun _ => rfl, rfl⟩
  · exact ⟨rfl, fillable_one _ rfl rfl rfl, fun _ => ⟨by simp [mode, m68Alterable], rfl⟩, fun h => absurd rfl h, rfl⟩
  · exact ⟨rfl, hi _ hv _ rfl rfl rfl, fun _ => ⟨by simp [mode, m68Alterable], rfl⟩, fun h => absurd rfl h, rfl⟩
  · exact ⟨rfl, fillable_one _ rfl rfl rfl, nofun, fun _ => rfl, rfl⟩
  · exact ⟨rfl, fillable_two _ rfl rfl rfl, nofun, fun _ => rfl, rfl⟩
  · refine ⟨rfl, ?_, nofun, fun _ => rfl, rfl⟩
    cases sz with
    | byte => exact fillable_one _ rfl rfl rfl
    | word => exact fillable_one _ rfl rfl rfl
    | long => exact fillable_two _ rfl rfl rfl

namespace M68Shape

/-- The words before the first number. -/
def front : M68Shape → List Nat
  | .bccB _ _ => []
  | sh => [sh.head 0]

/-- The words that hold it. -/
def mid : M68Shape → Int → List Nat
  | .bccB k t, a => [(bccB k t).head a]
  | sh, a => sh.seg1 a

theorem words_parts (sh : M68Shape) (a b : Int) : sh.words a b = sh.front ++ sh.mid a ++ sh.seg2 b := by
  cases sh <;> rfl

theorem mid_length (sh : M68Shape) (a b : Int) : (sh.mid a).length = (sh.mid b).length := by
  cases sh <;> first | rfl | exact ext_length _ _ _ _ | exact ext_length (.imm []) _ _ _

theorem seg2_length (sh : M68Shape) (a b : Int) : (sh.seg2 a).length = (sh.seg2 b).length := by
  cases sh <;> first | rfl | exact ext_length _ _ _ _

theorem slot1_fill {sh : M68Shape} {pc : Int} {p : M68Slot} (hv : sh.Valid) (h : sh.slot1 pc = some p) :
    p.2.1.offset = 2 * sh.front.length ∧ Fillable p.2.1 sh.mid ∧ (p.1 = .pc → p.2.1.relative = pc + 2) ∧ (p.1 ≠ .pc → p.2.1.relative = 0) := by
  cases sh with
  | move sz f g =>
    obtain ⟨h1, h2, h3, h4, -⟩ := EaForm.slot_fill hv.1 h
    exact ⟨h1, h2, fun e => by have := (h3 e).2; simpa using this, h4⟩
  | movea sz f n =>
    obtain ⟨h1, h2, h3, h4, -⟩ := EaForm.slot_fill hv.1 h
    exact ⟨h1, h2, fun e => by have := (h3 e).2; simpa using this, h4⟩
  | imm op sz t g =>
    obtain ⟨h1, h2, h3, h4, -⟩ := EaForm.slot_fill (f := .imm t) trivial h
    exact ⟨h1, h2, fun e => by have := (h3 e).2; simpa using this, h4⟩
  | status op sz t =>
    obtain ⟨h1, h2, h3, h4, -⟩ := EaForm.slot_fill (f := .imm t) trivial h
    exact ⟨h1, h2, fun e => by have := (h3 e).2; simpa using this, h4⟩
  | lea f n =>
    obtain ⟨h1, h2, h3, h4, -⟩ := EaForm.slot_fill hv.1 h
    exact ⟨h1, h2, fun e => by have := (h3 e).2; simpa using this, h4⟩
  | jump j f =>
    obtain ⟨h1, h2, h3, h4, -⟩ := EaForm.slot_fill hv.1 h
    exact ⟨h1, h2, fun e => by have := (h3 e).2; simpa using this, h4⟩
  | bccB k t =>
    have hk : k < 16 := hv
    cases h
    exact ⟨rfl, fillable_low _ rfl rfl rfl (0x6000 + k * 256) (by omega) (by omega), fun _ => rfl, fun e => absurd rfl e⟩
  | bccW k t => cases h; exact ⟨rfl, fillable_one _ rfl rfl rfl, fun _ => rfl, fun e => absurd rfl e⟩
  | dbcc k n t => cases h; exact ⟨rfl, fillable_one _ rfl rfl rfl, fun _ => rfl, fun e => absurd rfl e⟩
  | rts => cases h
  | nop => cases h

theorem slot2_fill {sh : M68Shape} {pc : Int} {p : M68Slot} (hv : sh.Valid) (h : sh.slot2 pc = some p) :
    p.2.1.offset = 2 * (sh.front.length + (sh.mid 0).length) ∧ Fillable p.2.1 sh.seg2 ∧ p.1 ≠ .pc ∧ p.2.1.relative = 0 := by
  cases sh with
  | move sz f g =>
    obtain ⟨h1, h2, h3, h4, -⟩ := EaForm.slot_fill hv.2.1 h
    have hne : p.1 ≠ .pc := fun e => hv.2.2 (h3 e).1
    refine ⟨?_, h2, hne, h4 hne⟩
    rw [h1]
    show _ = 2 * (1 + (f.ext sz 0).length)
    omega
  | imm op sz t g =>
    obtain ⟨h1, h2, h3, h4, -⟩ := EaForm.slot_fill hv.1 h
    have hne : p.1 ≠ .pc := fun e => hv.2 (h3 e).1
    refine ⟨?_, h2, hne, h4 hne⟩
    rw [h1]
    cases sz <;> rfl
  | _ => cases h

end M68Shape

/-- Linking fills the words of a reference. -/
theorem own_filled {d : Dialect} (hp : d.postLink = pure ()) (hbe : d.bigEndian = true) {s s' : St} {a : Nat} {blob : Bytes} {rels : List Reloc} {r : Reloc} {w : Int → List Nat}
    (h : LinksOwn d s s' a blob.length rels) (hR : Recorded s a blob r)
    (hd : ∀ x ∈ rels, x = r ∨ x.offset + x.size ≤ r.offset ∨ r.offset + r.size ≤ x.offset) (hf : Fillable r w)
    (hw : window blob r.offset r.size = bytesOf (w 0)) (hne : r.label ≠ []) (hch : ∀ c ∈ r.label, formulaChar c = false) :
    ∃ l, s.labels.lookup r.label = some l ∧ RefRange r (l.org + l.base - r.relative) ∧ (r.relative = 0 → 0 ≤ l.org + l.base) ∧
      (l.org + l.base) % (r.alignment : Int) = 0 ∧
      window s'.bytes (a + r.offset) r.size = bytesOf (w (l.org + l.base - r.relative)) := by
  have hal := own_alone h hR hd
  obtain ⟨hfil, hsz, -, ⟨hb, hv⟩ | ⟨hb, hs, w0, h0, h1, hv⟩⟩ := hf
  · obtain ⟨l, h1, h2, h3, h4, h5⟩ := word_linked hp hal hR hb (by
      rw [hw, hv, hbe]
      have := ofBytes_wordBytes true r.size 0
      simpa using this) hne hch
    refine ⟨l, h1, h2, h3, h4, ?_⟩
    rw [h5, hbe, hv]
    simp only [converted, hfil]
  · have e2 : ∀ n : Nat, n < 2 ^ 16 → ofBytes true (bytesOf [n]) = n := by
      intro n hn
      have h2 := ofBytes_wordBytes true 2 (n : Int)
      have h3 : bytesOf [n] = wordBytes true 2 (n : Int) := List.append_nil _
      rw [h3]
      omega
    have hbl : ofBytes d.bigEndian (window blob r.offset r.size) = w0 := by
      rw [hw, hv, hbe, show ((0 : Int) % 256).toNat = 0 from rfl, Nat.add_zero]
      exact e2 w0 (by omega)
    obtain ⟨l, g1, g2, g3, g4, g5⟩ := field_linked (hi := 7) (lo := 0) hp hal hR hb (by omega) (by omega) (by
      rw [hbl]; simpa using h0) hne hch
    refine ⟨l, g1, g2, g3, g4, ?_⟩
    rw [hbl] at g5
    have hlen : (window s'.bytes (a + r.offset) r.size).length = r.size := by
      have hl := (C36_windows d .dummy hp s (fun e he => (h.ordinary e he).hook)).1
      rw [h.ok] at hl
      simp only at hl
      have hin := hR.inside
      have := code_length hR.code (by omega)
      exact window_length (by omega)
    apply ofBytes_inj d.bigEndian
    · rw [hlen, hv, bytesOf_length, hs]; rfl
    · rw [hv, hbe] at *
      have : converted r (l.org + l.base - r.relative) = l.org + l.base - r.relative := by simp only [converted, hfil]
      rw [this] at g5
      have g5 : ((ofBytes true (window s'.bytes (a + r.offset) r.size) : Nat) : Int) = (w0 : Int) + ((l.org + l.base - r.relative) % 2 ^ 8) * 2 ^ 0 := g5
      generalize l.org + l.base - r.relative = v at *
      rw [e2 _ (by omega)]
      omega

end Necro
