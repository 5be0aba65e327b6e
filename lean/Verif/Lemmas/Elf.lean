import Verif.Model.Elf
import Verif.Spec.Elf
import Verif.Lemmas.Pack
/-!
# ELF: helper lemmas
-/

namespace Necro
open Spec

/-! ## Packing and reading fields -/

/-- The bytes of one field. -/
def encField (be : Bool) (f : Fmt) (v : Int) : Bytes := if be then beBytes f.size v else leBytes f.size v

theorem structPack_cons {be : Bool} {f : Fmt} {fs : List Fmt} {v : Int} {vs : List Int} {out : Bytes}
    (h : structPack be (f :: fs) (v :: vs) = .ok out) :
    f.fits v = true ∧ ∃ r, structPack be fs vs = .ok r ∧ out = encField be f v ++ r := by
  unfold structPack at h
  split at h
  · rename_i hf
    cases hr : structPack be fs vs with
    | error e => rw [hr] at h; simp at h
    | ok r => rw [hr] at h; simp only [Except.ok.injEq] at h; exact ⟨hf, r, rfl, h.symm⟩
  · simp at h

theorem structPack_length {be : Bool} : ∀ {fs : List Fmt} {vs : List Int} {out : Bytes},
    structPack be fs vs = .ok out → out.length = (fs.map Fmt.size).sum
  | [], [], out, h => by simp [structPack] at h; subst h; rfl
  | [], v :: vs, out, h => by simp [structPack] at h
  | f :: fs, [], out, h => by simp [structPack] at h
  | f :: fs, v :: vs, out, h => by
    obtain ⟨_, r, hr, rfl⟩ := structPack_cons h
    simp [encField, structPack_length hr]

theorem structPack_at {be : Bool} : ∀ {fs : List Fmt} {vs : List Int} {out : Bytes},
    structPack be fs vs = .ok out → ∀ (k : Nat) (f : Fmt) (v : Int), fs[k]? = some f → vs[k]? = some v →
      f.fits v = true ∧ ∃ a b, out = a ++ (encField be f v ++ b) ∧ a.length = ((fs.take k).map Fmt.size).sum
  | [], _, _, _, k, f, v, hf, _ => by simp at hf
  | _ :: _, [], _, _, k, f, v, _, hv => by simp at hv
  | f0 :: fs, v0 :: vs, out, h, 0, f, v, hf, hv => by
    obtain ⟨h1, r, hr, rfl⟩ := structPack_cons h
    simp only [List.getElem?_cons_zero, Option.some.injEq] at hf hv
    subst hf hv
    exact ⟨h1, [], r, rfl, rfl⟩
  | f0 :: fs, v0 :: vs, out, h, k + 1, f, v, hf, hv => by
    obtain ⟨h1, r, hr, rfl⟩ := structPack_cons h
    simp only [List.getElem?_cons_succ] at hf hv
    obtain ⟨h2, a, b, rfl, ha⟩ := structPack_at hr k f v hf hv
    refine ⟨h2, encField be f0 v0 ++ a, b, by simp, ?_⟩
    simp [encField, ha]

/-- Unsigned formats. -/
def Fmt.unsigned : Fmt → Bool
  | .B | .H | .I | .Q => true
  | _ => false

theorem fits_unsigned {f : Fmt} {v : Int} (hu : f.unsigned = true) : f.fits v = true ↔ 0 ≤ v ∧ v < 256 ^ f.size := by
  cases f <;> simp [Fmt.unsigned] at hu <;> simp [Fmt.fits, Fmt.size]

theorem structPack_fits_ok {be : Bool} : ∀ {fs : List Fmt} {vs : List Int}, fs.length = vs.length →
    (∀ p ∈ fs.zip vs, p.1.fits p.2 = true) → ∃ out, structPack be fs vs = .ok out
  | [], [], _, _ => ⟨[], rfl⟩
  | [], _ :: _, h, _ => by simp at h
  | _ :: _, [], h, _ => by simp at h
  | f :: fs, v :: vs, h, hf => by
    obtain ⟨r, hr⟩ := structPack_fits_ok (be := be) (fs := fs) (vs := vs) (by simpa using h)
      (fun p hp => hf p (by simp [hp]))
    have h0 := hf (f, v) (by simp)
    simp only at h0
    exact ⟨_, by unfold structPack; rw [if_pos h0, hr]⟩

theorem window_append_mid (a b c : Bytes) : window (a ++ (b ++ c)) a.length b.length = b := by
  unfold window
  rw [List.drop_left, List.take_left]

/-- A field of a packed record, read in place. -/
theorem field_of_pack {be : Bool} {fs : List Fmt} {vs : List Int} {out : Bytes}
    (h : structPack be fs vs = .ok out) (k : Nat) (f : Fmt) (v : Int) (hf : fs[k]? = some f)
    (hv : vs[k]? = some v) (hu : f.unsigned = true) (pre post : Bytes) (o : Nat)
    (ho : o = pre.length + ((fs.take k).map Fmt.size).sum) :
    (field be (pre ++ (out ++ post)) o f.size : Int) = v := by
  obtain ⟨h1, a, b, rfl, ha⟩ := structPack_at h k f v hf hv
  obtain ⟨h2, h3⟩ := (fits_unsigned hu).1 h1
  have e : pre ++ (a ++ (encField be f v ++ b) ++ post) = (pre ++ a) ++ (encField be f v ++ (b ++ post)) := by simp
  have el : (encField be f v).length = f.size := enc_length ..
  have eo : o = (pre ++ a).length := by rw [ho, List.length_append, ha]
  unfold field
  rw [e, eo]
  conv => lhs; rw [← el]
  rw [window_append_mid]
  unfold encField
  rw [ofBytes_enc, Int.emod_eq_of_lt h2 h3]

/-- The fields of a section header as integers. -/
def shdrInts (h : Shdr) : List Int :=
  [h.name, h.type, h.flags, h.addr, h.offset, h.size, h.link, h.info, h.align, h.entsize]

theorem readShdr_pack (c : ElfCfg) {v0 v1 v2 v3 v4 v5 v6 v7 v8 v9 : Int} {out : Bytes}
    (h : structPack c.bigEndian c.sectionFormat [v0, v1, v2, v3, v4, v5, v6, v7, v8, v9] = .ok out) (pre post : Bytes)
    (o : Nat) (ho : o = pre.length) :
    shdrInts (readShdr c.is64 c.bigEndian (pre ++ (out ++ post)) o) = [v0, v1, v2, v3, v4, v5, v6, v7, v8, v9] := by
  subst ho
  obtain ⟨is64, be, t, m, al⟩ := c
  cases is64
  · have h' : structPack be [.I, .I, .I, .I, .I, .I, .I, .I, .I, .I] [v0, v1, v2, v3, v4, v5, v6, v7, v8, v9] = .ok out := h
    have g := fun k v hv (o : Nat) hf ho => field_of_pack h' k .I v hf hv rfl pre post o ho
    simp only [readShdr, shdrInts, Bool.false_eq_true, if_false]
    simp only [List.cons.injEq, and_true]
    exact ⟨g 0 v0 rfl _ rfl rfl, g 1 v1 rfl _ rfl rfl, g 2 v2 rfl _ rfl rfl, g 3 v3 rfl _ rfl rfl, g 4 v4 rfl _ rfl rfl,
      g 5 v5 rfl _ rfl rfl, g 6 v6 rfl _ rfl rfl, g 7 v7 rfl _ rfl rfl, g 8 v8 rfl _ rfl rfl, g 9 v9 rfl _ rfl rfl⟩
  · have h' : structPack be [.I, .I, .Q, .Q, .Q, .Q, .I, .I, .Q, .Q] [v0, v1, v2, v3, v4, v5, v6, v7, v8, v9] = .ok out := h
    have g := fun k v hv (o : Nat) hf ho => field_of_pack h' k .I v hf hv rfl pre post o ho
    have q := fun k v hv (o : Nat) hf ho => field_of_pack h' k .Q v hf hv rfl pre post o ho
    simp only [readShdr, shdrInts, if_true]
    simp only [List.cons.injEq, and_true]
    exact ⟨g 0 v0 rfl _ rfl rfl, g 1 v1 rfl _ rfl rfl, q 2 v2 rfl _ rfl rfl, q 3 v3 rfl _ rfl rfl, q 4 v4 rfl _ rfl rfl,
      q 5 v5 rfl _ rfl rfl, g 6 v6 rfl _ rfl rfl, g 7 v7 rfl _ rfl rfl, q 8 v8 rfl _ rfl rfl, q 9 v9 rfl _ rfl rfl⟩

theorem shdr_pack_length (c : ElfCfg) {vs : List Int} {out : Bytes}
    (h : structPack c.bigEndian c.sectionFormat vs = .ok out) : out.length = c.sectionHeaderSize := by
  rw [structPack_length h]
  unfold ElfCfg.sectionFormat ElfCfg.sectionHeaderSize
  cases c.is64 <;> rfl

/-! ## Tables of equal-sized records -/

theorem concatM_ok {f : α → Except Err Bytes} : ∀ {l : List α} {out : Bytes}, concatM f l = .ok out →
    ∃ parts : List Bytes, out = parts.flatten ∧ parts.length = l.length ∧
      ∀ (i : Nat) (x : α), l[i]? = some x → ∃ b, parts[i]? = some b ∧ f x = .ok b
  | [], out, h => by
    simp only [concatM, Except.ok.injEq] at h
    exact ⟨[], by simp [← h], rfl, by simp⟩
  | x :: xs, out, h => by
    unfold concatM at h
    cases hx : f x with
    | error e => rw [hx] at h; simp at h
    | ok b =>
      rw [hx] at h
      cases hr : concatM f xs with
      | error e => rw [hr] at h; simp at h
      | ok bs =>
        rw [hr] at h
        simp only [Except.ok.injEq] at h
        obtain ⟨parts, rfl, hl, hp⟩ := concatM_ok hr
        refine ⟨b :: parts, by simp [← h], by simp [hl], ?_⟩
        intro i y hy
        cases i with
        | zero => simp only [List.getElem?_cons_zero, Option.some.injEq] at hy; subst hy; exact ⟨b, rfl, hx⟩
        | succ i => simp only [List.getElem?_cons_succ] at hy ⊢; exact hp i y hy

theorem concatM_exists {f : α → Except Err Bytes} : ∀ {l : List α}, (∀ x ∈ l, ∃ b, f x = .ok b) →
    ∃ out, concatM f l = .ok out
  | [], _ => ⟨[], rfl⟩
  | x :: xs, h => by
    obtain ⟨b, hb⟩ := h x (by simp)
    obtain ⟨bs, hbs⟩ := concatM_exists (l := xs) fun y hy => h y (by simp [hy])
    exact ⟨b ++ bs, by unfold concatM; rw [hb, hbs]⟩

theorem flatten_at {w : Nat} : ∀ {parts : List Bytes}, (∀ p ∈ parts, p.length = w) → ∀ (i : Nat) (b : Bytes),
    parts[i]? = some b → ∃ a z, parts.flatten = a ++ (b ++ z) ∧ a.length = w * i
  | [], _, i, b, h => by simp at h
  | p :: ps, hw, 0, b, h => by
    simp only [List.getElem?_cons_zero, Option.some.injEq] at h
    subst h
    exact ⟨[], ps.flatten, by simp, by simp⟩
  | p :: ps, hw, i + 1, b, h => by
    simp only [List.getElem?_cons_succ] at h
    obtain ⟨a, z, e, ha⟩ := flatten_at (fun q hq => hw q (by simp [hq])) i b h
    refine ⟨p ++ a, z, by simp [e], ?_⟩
    simp [ha, hw p (by simp), Nat.mul_add, Nat.add_comm]

theorem flatten_length {w : Nat} : ∀ {parts : List Bytes}, (∀ p ∈ parts, p.length = w) → parts.flatten.length = w * parts.length
  | [], _ => by simp
  | p :: ps, hw => by
    simp [hw p (by simp), flatten_length (parts := ps) (fun q hq => hw q (by simp [hq])), Nat.mul_add, Nat.add_comm]

/-! ## String tables -/

theorem utf8Char_eq (c : Char) : (String.utf8EncodeChar c).map (·.toBitVec) = utf8Char c := by
  have e : c.val.toNat = c.toNat := rfl
  have hlt : c.toNat < 0x110000 := by
    have := c.valid
    rcases this with h | ⟨_, h⟩
    · have h' : c.val.toNat < 0xd800 := h
      rw [e] at h'; omega
    · have h' : c.val.toNat < 0x110000 := h
      rw [e] at h'; omega
  unfold String.utf8EncodeChar utf8Char
  simp only [e]
  generalize c.toNat = n at hlt
  have key : ∀ a b : Nat, a % 256 = b % 256 → (UInt8.ofNat a).toBitVec = BitVec.ofNat 8 b := by
    intro a b hab
    apply BitVec.eq_of_toNat_eq
    simpa [UInt8.toNat_toBitVec] using hab
  by_cases h1 : n ≤ 0x7f
  · rw [if_pos h1, if_pos (show n < 0x80 by omega)]
    simp only [List.map_cons, List.map_nil]
    rw [key n n rfl]
  · rw [if_neg h1, if_neg (show ¬ n < 0x80 by omega)]
    by_cases h2 : n ≤ 0x7ff
    · rw [if_pos h2, if_pos (show n < 0x800 by omega)]
      simp only [List.map_cons, List.map_nil]
      rw [key _ (0xC0 + n / 64) (by omega), key _ (0x80 + n % 64) (by omega)]
    · rw [if_neg h2, if_neg (show ¬ n < 0x800 by omega)]
      by_cases h3 : n ≤ 0xffff
      · rw [if_pos h3, if_pos (show n < 0x10000 by omega)]
        simp only [List.map_cons, List.map_nil]
        rw [key _ (0xE0 + n / 4096) (by omega), key _ (0x80 + n / 64 % 64) (by omega), key _ (0x80 + n % 64) (by omega)]
      · rw [if_neg h3, if_neg (show ¬ n < 0x10000 by omega)]
        simp only [List.map_cons, List.map_nil]
        rw [key _ (0xF0 + n / 262144) (by omega), key _ (0x80 + n / 4096 % 64) (by omega),
          key _ (0x80 + n / 64 % 64) (by omega), key _ (0x80 + n % 64) (by omega)]

theorem encodeUtf8_eq (s : Str) : encodeUtf8 s = utf8 s := by
  unfold encodeUtf8 utf8
  congr 1
  funext c
  exact (utf8Char_eq c).symm

theorem utf8Char_ne_zero {c : Char} (h : c ≠ '\x00') : (0 : Byte) ∉ utf8Char c := by
  have h0 : c.toNat ≠ 0 := by
    intro e
    apply h
    apply Char.ext
    apply UInt32.toNat_inj.1
    exact e
  have hlt : c.toNat < 0x110000 := by
    have e : c.val.toNat = c.toNat := rfl
    rcases c.valid with h | ⟨_, h⟩
    · have h' : c.val.toNat < 0xd800 := h
      rw [e] at h'; omega
    · have h' : c.val.toNat < 0x110000 := h
      rw [e] at h'; omega
  have key : ∀ a : Nat, a % 256 ≠ 0 → (0 : Byte) ≠ BitVec.ofNat 8 a := by
    intro a ha e
    apply ha
    have := congrArg BitVec.toNat e
    simpa using this.symm
  unfold utf8Char
  generalize c.toNat = n at h0 hlt
  simp only
  split
  · simp only [List.mem_singleton]; exact key n (by omega)
  split
  · simp only [List.mem_cons, List.not_mem_nil, or_false, not_or]
    exact ⟨key _ (by omega), key _ (by omega)⟩
  split
  · simp only [List.mem_cons, List.not_mem_nil, or_false, not_or]
    exact ⟨key _ (by omega), key _ (by omega), key _ (by omega)⟩
  · simp only [List.mem_cons, List.not_mem_nil, or_false, not_or]
    exact ⟨key _ (by omega), key _ (by omega), key _ (by omega), key _ (by omega)⟩

theorem utf8_no_zero {s : Str} (h : '\x00' ∉ s) : (0 : Byte) ∉ utf8 s := by
  rw [← encodeUtf8_eq]
  unfold encodeUtf8
  simp only [List.mem_flatMap, not_exists, not_and]
  intro c hc
  exact utf8Char_ne_zero (fun e => h (e ▸ hc))

theorem stringAt_mid (pre x post : Bytes) (h : (0 : Byte) ∉ x) (o : Nat) (ho : o = pre.length) :
    stringAt (pre ++ (x ++ 0 :: post)) o = x := by
  subst ho
  unfold stringAt
  rw [List.drop_left]
  induction x with
  | nil => simp
  | cons b x ih =>
    simp only [List.mem_cons, not_or] at h
    rw [List.cons_append, List.takeWhile_cons, if_pos (by simpa using fun e => h.1 e.symm), ih h.2]

theorem addNames_grow : ∀ (ns : List Str) (t : Bytes), ∃ z, (addNames ns t).2 = t ++ z
  | [], t => ⟨[], by simp [addNames]⟩
  | n :: ns, t => by
    obtain ⟨z, hz⟩ := addNames_grow ns (t ++ (encodeUtf8 n ++ [0]))
    exact ⟨(encodeUtf8 n ++ [0]) ++ z, by simp only [addNames]; rw [hz]; simp⟩

theorem addNames_length : ∀ (ns : List Str) (t : Bytes), (addNames ns t).1.length = ns.length
  | [], t => rfl
  | n :: ns, t => by simp [addNames, addNames_length ns]

theorem addNames_size : ∀ (ns : List Str) (t : Bytes),
    (addNames ns t).2.length = t.length + (ns.map fun n => (utf8 n).length + 1).sum
  | [], t => by simp [addNames]
  | n :: ns, t => by
    simp only [addNames]
    rw [addNames_size ns]
    simp [encodeUtf8_eq]
    omega

theorem addNames_at : ∀ (ns : List Str) (t : Bytes) (i : Nat) (n : Str), ns[i]? = some n →
    ∃ pre post, (addNames ns t).1[i]? = some pre.length ∧ (addNames ns t).2 = pre ++ (utf8 n ++ 0 :: post)
  | [], t, i, n, h => by simp at h
  | m :: ns, t, 0, n, h => by
    simp only [List.getElem?_cons_zero, Option.some.injEq] at h
    subst h
    obtain ⟨z, hz⟩ := addNames_grow ns (t ++ (encodeUtf8 m ++ [0]))
    exact ⟨t, z, by simp [addNames], by simp only [addNames]; rw [hz]; simp [encodeUtf8_eq]⟩
  | m :: ns, t, i + 1, n, h => by
    simp only [List.getElem?_cons_succ] at h
    obtain ⟨pre, post, h1, h2⟩ := addNames_at ns (t ++ (encodeUtf8 m ++ [0])) i n h
    exact ⟨pre, post, by simp only [addNames, List.getElem?_cons_succ]; exact h1, by simp only [addNames]; exact h2⟩

/-! ## The parts of a file -/

/-- What the program computed on the way to a file. -/
structure ElfParts (c : ElfCfg) (s : St) (file : Bytes) where
  ident : Bytes
  rest : Bytes
  null : Bytes
  heads : Bytes
  h1 : Bytes
  h2 : Bytes
  h3 : Bytes
  symtab : Bytes
  hIdent : structPack c.bigEndian [.H, .H, .I] [c.eType, c.machine, 1] = .ok ident
  hRest : elfHeaderRest c s.sections.length = .ok rest
  hNull : nullSection c = .ok null
  hHeads : sectionHeaders c (elfFileBase c s) ((elfNames s).sectionOffsets.zip (s.sections.map Prod.snd)) = .ok heads
  hSym : symbolTable c s.sections ((elfNames s).symbolOffsets.zip ((exportedLabels s).map Prod.snd)) = .ok symtab
  hH1 : buildStringSection c (elfNames s).shstrtabName (elfFileBase c s + s.bytes.length) (elfNames s).shstrtab = .ok h1
  hH2 : buildStringSection c (elfNames s).strtabName
    (elfFileBase c s + s.bytes.length + (elfNames s).shstrtab.length) (elfNames s).strtab = .ok h2
  hH3 : buildSymtabSection c (elfNames s).symtabName
    (elfFileBase c s + s.bytes.length + (elfNames s).shstrtab.length + (elfNames s).strtab.length) symtab
    (s.sections.length + 2) = .ok h3
  hFile : file = ([0x7F, 0x45, 0x4C, 0x46] ++ [if c.is64 then 2 else 1, if c.bigEndian then 2 else 1, 1, 0] ++
      List.replicate 8 0 ++ ident) ++ rest ++ (null ++ heads ++ h1 ++ h2 ++ h3) ++ s.bytes ++ (elfNames s).shstrtab ++
      (elfNames s).strtab ++ symtab

theorem elfFile_parts {c : ElfCfg} {s : St} {file : Bytes} (h : elfFile c s = .ok file) : Nonempty (ElfParts c s file) := by
  unfold elfFile elfInit elfLink at h
  cases e0 : structPack c.bigEndian [.H, .H, .I] [c.eType, c.machine, 1] with
  | error e => rw [e0] at h; simp [bind, Except.bind] at h
  | ok ident =>
  cases e1 : nullSection c with
  | error e => rw [e0, e1] at h; simp [bind, Except.bind] at h
  | ok null =>
  cases e2 : sectionHeaders c (elfFileBase c s) ((elfNames s).sectionOffsets.zip (s.sections.map Prod.snd)) with
  | error e => rw [e0, e1] at h; simp [bind, Except.bind, e2] at h
  | ok heads =>
  cases e3 : symbolTable c s.sections ((elfNames s).symbolOffsets.zip ((exportedLabels s).map Prod.snd)) with
  | error e => rw [e0, e1] at h; simp [bind, Except.bind, e2, e3] at h
  | ok symtab =>
  cases e4 : buildStringSection c (elfNames s).shstrtabName (elfFileBase c s + s.bytes.length) (elfNames s).shstrtab with
  | error e => rw [e0, e1] at h; simp [bind, Except.bind, e2, e3, e4] at h
  | ok h1 =>
  cases e5 : buildStringSection c (elfNames s).strtabName
    (elfFileBase c s + s.bytes.length + (elfNames s).shstrtab.length) (elfNames s).strtab with
  | error e => rw [e0, e1] at h; simp [bind, Except.bind, e2, e3, e4, e5] at h
  | ok h2 =>
  cases e6 : buildSymtabSection c (elfNames s).symtabName
    (elfFileBase c s + s.bytes.length + (elfNames s).shstrtab.length + (elfNames s).strtab.length) symtab
    (s.sections.length + 2) with
  | error e => rw [e0, e1] at h; simp [bind, Except.bind, e2, e3, e4, e5, e6] at h
  | ok h3 =>
  cases e7 : elfHeaderRest c s.sections.length with
  | error e => rw [e0, e1] at h; simp [bind, Except.bind, e2, e3, e4, e5, e6, e7] at h
  | ok rest =>
  rw [e0, e1] at h
  simp only [bind, Except.bind, e2, e3, e4, e5, e6, e7, pure, Except.pure, Except.ok.injEq] at h
  exact ⟨⟨ident, rest, null, heads, h1, h2, h3, symtab, e0, e7, e1, e2, e3, e4, e5, e6, h.symm⟩⟩

/-- The bytes before the section headers. -/
def ElfParts.head {c : ElfCfg} {s : St} {file : Bytes} (p : ElfParts c s file) : Bytes :=
  ([0x7F, 0x45, 0x4C, 0x46] ++ [if c.is64 then 2 else 1, if c.bigEndian then 2 else 1, 1, 0] ++
      List.replicate 8 0 ++ p.ident) ++ p.rest

variable {c : ElfCfg} {s : St} {file : Bytes}

theorem ElfParts.head_length (p : ElfParts c s file) : p.head.length = c.headerSize := by
  have h1 := structPack_length p.hIdent
  have h2 : p.rest.length = c.headerSize - 24 := by
    rw [structPack_length p.hRest, ElfCfg.headerSize]
    cases c.is64 <;> rfl
  unfold ElfParts.head
  simp only [List.length_append, h1, h2]
  unfold ElfCfg.headerSize
  cases c.is64 <;> rfl

/-- Offsets in the header are a fixed part followed by the packed fields. -/
theorem elf_readEhdr (p : ElfParts c s file) : readEhdr file = some
    { is64 := c.is64, be := c.bigEndian, type := c.eType.toNat, machine := c.machine.toNat, version := 1, entry := 0,
      phoff := 0, shoff := c.headerSize, flags := 0, ehsize := c.headerSize, phentsize := 0, phnum := 0,
      shentsize := c.sectionHeaderSize, shnum := s.sections.length + 4, shstrndx := s.sections.length + 1 } ∧
    0 ≤ c.eType ∧ 0 ≤ c.machine := by
  have hI := p.hIdent
  have hR := p.hRest
  have hf := p.hFile
  have b0 := ((fits_unsigned (f := .H) rfl).1 (structPack_at hI 0 .H c.eType rfl rfl).1).1
  have b1 := ((fits_unsigned (f := .H) rfl).1 (structPack_at hI 1 .H c.machine rfl rfl).1).1
  refine ⟨?_, b0, b1⟩
  obtain ⟨is64, be, t, m, al⟩ := c
  generalize p.ident = ident at hI hf
  generalize p.rest = rest at hR hf
  generalize hpost : p.null ++ p.heads ++ p.h1 ++ p.h2 ++ p.h3 ++ s.bytes ++ (elfNames s).shstrtab ++
      (elfNames s).strtab ++ p.symtab = post
  have hf1 : file = ([0x7F, 0x45, 0x4C, 0x46] ++ [if is64 then 2 else 1, if be then 2 else 1, 1, 0] ++
      List.replicate 8 0) ++ (ident ++ (rest ++ post)) := by
    rw [hf, ← hpost]
    simp only [List.append_assoc]
  have hf2 : file = ([0x7F, 0x45, 0x4C, 0x46] ++ [if is64 then 2 else 1, if be then 2 else 1, 1, 0] ++
      List.replicate 8 0 ++ ident) ++ (rest ++ post) := by
    rw [hf1]; simp only [List.append_assoc]
  have li : ident.length = 8 := structPack_length hI
  have m0 : window file 0 4 = [0x7F, 0x45, 0x4C, 0x46] := by rw [hf1]; rfl
  have m4 : file[4]? = some (if is64 then 2 else 1) := by rw [hf1]; rfl
  have m5 : file[5]? = some (if be then 2 else 1) := by rw [hf1]; rfl
  have m6 : file[6]? = some 1 := by rw [hf1]; rfl
  have gI : ∀ (k : Nat) (f : Fmt) (v : Int) (n : Nat), [Fmt.H, .H, .I][k]? = some f → [t, m, 1][k]? = some v → f.unsigned = true →
      ∀ o, o = 16 + ((([Fmt.H, .H, .I].take k).map Fmt.size).sum) → (n : Int) = v → field be file o f.size = n := by
    intro k f v n hk hv hu o ho hn
    have := field_of_pack hI k f v hk hv hu ([0x7F, 0x45, 0x4C, 0x46] ++ [if is64 then 2 else 1, if be then 2 else 1, 1, 0] ++
      List.replicate 8 0) (rest ++ post) o (by rw [ho]; rfl)
    rw [← hf1] at this
    have h2 : (field be file o f.size : Int) = n := by rw [hn]; exact this
    omega
  unfold readEhdr
  rw [if_neg (by rw [m0]; simp), m4, m5, m6]
  cases is64
  · have gR : ∀ (k : Nat) (f : Fmt) (v : Int) (n : Nat), [Fmt.I, .I, .I, .I, .H, .H, .H, .H, .H, .H][k]? = some f →
        ([0, 0, ((52 : Nat) : Int), 0, ((52 : Nat) : Int), 0, 0, ((40 : Nat) : Int), ((s.sections.length + 4 : Nat) : Int), ((s.sections.length + 1 : Nat) : Int)] : List Int)[k]? = some v →
        f.unsigned = true →
        ∀ o, o = 24 + ((([Fmt.I, .I, .I, .I, .H, .H, .H, .H, .H, .H].take k).map Fmt.size).sum) → (n : Int) = v →
        field be file o f.size = n := by
      intro k f v n hk hv hu o ho hn
      have := field_of_pack hR k f v hk hv hu ([0x7F, 0x45, 0x4C, 0x46] ++ [if false then 2 else 1, if be then 2 else 1, 1, 0] ++
        List.replicate 8 0 ++ ident) post o (by rw [ho, List.length_append, li]; rfl)
      rw [← hf2] at this
      have h2 : (field be file o f.size : Int) = n := by rw [hn]; exact this
      omega
    have t0 := gI 0 .H t t.toNat rfl rfl rfl 16 rfl (Int.toNat_of_nonneg b0)
    have t1 := gI 1 .H m m.toNat rfl rfl rfl 18 rfl (Int.toNat_of_nonneg b1)
    have t2 := gI 2 .I 1 1 rfl rfl rfl 20 rfl rfl
    have r0 := gR 0 .I _ 0 rfl rfl rfl 24 rfl rfl
    have r1 := gR 1 .I _ 0 rfl rfl rfl 28 rfl rfl
    have r2 := gR 2 .I _ 52 rfl rfl rfl 32 rfl rfl
    have r3 := gR 3 .I _ 0 rfl rfl rfl 36 rfl rfl
    have r4 := gR 4 .H _ 52 rfl rfl rfl 40 rfl rfl
    have r5 := gR 5 .H _ 0 rfl rfl rfl 42 rfl rfl
    have r6 := gR 6 .H _ 0 rfl rfl rfl 44 rfl rfl
    have r7 := gR 7 .H _ 40 rfl rfl rfl 46 rfl rfl
    have r8 := gR 8 .H _ (s.sections.length + 4) rfl rfl rfl 48 rfl rfl
    have r9 := gR 9 .H _ (s.sections.length + 1) rfl rfl rfl 50 rfl rfl
    simp only [Fmt.size] at t0 t1 t2 r0 r1 r2 r3 r4 r5 r6 r7 r8 r9
    cases be <;>
      simp [t0, t1, t2, r0, r1, r2, r3, r4, r5, r6, r7, r8, r9, ElfCfg.headerSize, ElfCfg.sectionHeaderSize]
  · have gR : ∀ (k : Nat) (f : Fmt) (v : Int) (n : Nat), [Fmt.Q, .Q, .Q, .I, .H, .H, .H, .H, .H, .H][k]? = some f →
        ([0, 0, ((64 : Nat) : Int), 0, ((64 : Nat) : Int), 0, 0, ((64 : Nat) : Int), ((s.sections.length + 4 : Nat) : Int), ((s.sections.length + 1 : Nat) : Int)] : List Int)[k]? = some v →
        f.unsigned = true →
        ∀ o, o = 24 + ((([Fmt.Q, .Q, .Q, .I, .H, .H, .H, .H, .H, .H].take k).map Fmt.size).sum) → (n : Int) = v →
        field be file o f.size = n := by
      intro k f v n hk hv hu o ho hn
      have := field_of_pack hR k f v hk hv hu ([0x7F, 0x45, 0x4C, 0x46] ++ [if true then 2 else 1, if be then 2 else 1, 1, 0] ++
        List.replicate 8 0 ++ ident) post o (by rw [ho, List.length_append, li]; rfl)
      rw [← hf2] at this
      have h2 : (field be file o f.size : Int) = n := by rw [hn]; exact this
      omega
    have t0 := gI 0 .H t t.toNat rfl rfl rfl 16 rfl (Int.toNat_of_nonneg b0)
    have t1 := gI 1 .H m m.toNat rfl rfl rfl 18 rfl (Int.toNat_of_nonneg b1)
    have t2 := gI 2 .I 1 1 rfl rfl rfl 20 rfl rfl
    have r0 := gR 0 .Q _ 0 rfl rfl rfl 24 rfl rfl
    have r1 := gR 1 .Q _ 0 rfl rfl rfl 32 rfl rfl
    have r2 := gR 2 .Q _ 64 rfl rfl rfl 40 rfl rfl
    have r3 := gR 3 .I _ 0 rfl rfl rfl 48 rfl rfl
    have r4 := gR 4 .H _ 64 rfl rfl rfl 52 rfl rfl
    have r5 := gR 5 .H _ 0 rfl rfl rfl 54 rfl rfl
    have r6 := gR 6 .H _ 0 rfl rfl rfl 56 rfl rfl
    have r7 := gR 7 .H _ 64 rfl rfl rfl 58 rfl rfl
    have r8 := gR 8 .H _ (s.sections.length + 4) rfl rfl rfl 60 rfl rfl
    have r9 := gR 9 .H _ (s.sections.length + 1) rfl rfl rfl 62 rfl rfl
    simp only [Fmt.size] at t0 t1 t2 r0 r1 r2 r3 r4 r5 r6 r7 r8 r9
    cases be <;>
      simp [t0, t1, t2, r0, r1, r2, r3, r4, r5, r6, r7, r8, r9, ElfCfg.headerSize, ElfCfg.sectionHeaderSize]

/-- The header the reader finds. -/
def elfEhdr (c : ElfCfg) (s : St) : Ehdr :=
  { is64 := c.is64, be := c.bigEndian, type := c.eType.toNat, machine := c.machine.toNat, version := 1, entry := 0,
      phoff := 0, shoff := c.headerSize, flags := 0, ehsize := c.headerSize, phentsize := 0, phnum := 0,
      shentsize := c.sectionHeaderSize, shnum := s.sections.length + 4, shstrndx := s.sections.length + 1 }

/-- Everything after the headers. -/
def ElfParts.tail (p : ElfParts c s file) : Bytes :=
  s.bytes ++ ((elfNames s).shstrtab ++ ((elfNames s).strtab ++ p.symtab))

theorem elfNames_offsets (s : St) : (elfNames s).sectionOffsets.length = s.sections.length := by
  show (addNames (s.sections.map Prod.fst) [0]).1.length = _
  rw [addNames_length, List.length_map]

theorem elfNames_symOffsets (s : St) : (elfNames s).symbolOffsets.length = (exportedLabels s).length := by
  show (addNames ((exportedLabels s).map Prod.fst) [0]).1.length = _
  rw [addNames_length, List.length_map]

/-- The section header table as a list of records. -/
theorem elf_table (p : ElfParts c s file) : ∃ parts : List Bytes,
    file = p.head ++ (parts.flatten ++ p.tail) ∧ parts.length = s.sections.length + 4 ∧
    (∀ b ∈ parts, b.length = c.sectionHeaderSize) ∧ parts[0]? = some p.null ∧
    (∀ (i : Nat) (name : Str) (sec : Section), s.sections[i]? = some (name, sec) → ∃ (o : Nat) (b : Bytes),
      (elfNames s).sectionOffsets[i]? = some o ∧ parts[i + 1]? = some b ∧ buildSection c (elfFileBase c s) o sec = .ok b) ∧
    parts[s.sections.length + 1]? = some p.h1 ∧ parts[s.sections.length + 2]? = some p.h2 ∧
    parts[s.sections.length + 3]? = some p.h3 := by
  obtain ⟨hp, e, hl, hi⟩ := concatM_ok p.hHeads
  have hlen : hp.length = s.sections.length := by
    rw [hl, List.length_zip, elfNames_offsets, List.length_map, Nat.min_self]
  refine ⟨p.null :: (hp ++ [p.h1, p.h2, p.h3]), ?_, by simp [hlen], ?_, rfl, ?_, ?_, ?_, ?_⟩
  · have := p.hFile
    unfold ElfParts.head ElfParts.tail
    refine this.trans ?_
    rw [e]
    simp only [List.append_assoc, List.flatten_cons, List.flatten_append, List.flatten_nil, List.append_nil]
  · intro b hb
    simp only [List.mem_cons, List.mem_append, List.not_mem_nil, or_false] at hb
    rcases hb with rfl | hb | rfl | rfl | rfl
    · exact shdr_pack_length c p.hNull
    · obtain ⟨i, hlt, hget⟩ := List.mem_iff_getElem.1 hb
      have hlt' : i < ((elfNames s).sectionOffsets.zip (s.sections.map Prod.snd)).length := by rw [← hl]; exact hlt
      obtain ⟨b', h1, h2⟩ := hi i _ (List.getElem?_eq_getElem hlt')
      rw [List.getElem?_eq_getElem hlt, Option.some.injEq] at h1
      rw [← hget, h1]
      exact shdr_pack_length c h2
    · exact shdr_pack_length c p.hH1
    · exact shdr_pack_length c p.hH2
    · exact shdr_pack_length c p.hH3
  · intro i name sec hs
    have hlt : i < s.sections.length := (List.getElem?_eq_some_iff.1 hs).1
    obtain ⟨o, ho⟩ : ∃ o, (elfNames s).sectionOffsets[i]? = some o :=
      ⟨_, List.getElem?_eq_getElem (by rw [elfNames_offsets]; exact hlt)⟩
    obtain ⟨b, h1, h2⟩ := hi i (o, sec) (by
      rw [List.getElem?_zip_eq_some]
      exact ⟨ho, by rw [List.getElem?_map, hs]; rfl⟩)
    refine ⟨o, b, ho, ?_, h2⟩
    rw [List.getElem?_cons_succ, List.getElem?_append_left (by rw [hlen]; exact hlt)]
    exact h1
  · rw [List.getElem?_cons_succ, List.getElem?_append_right (by omega), hlen]; simp
  · rw [List.getElem?_cons_succ, List.getElem?_append_right (by omega), hlen]; simp
  · rw [List.getElem?_cons_succ, List.getElem?_append_right (by omega), hlen]; simp

/-- One entry of the table, as the reader sees it. -/
theorem elf_entry (p : ElfParts c s file) {parts : List Bytes} (hf : file = p.head ++ (parts.flatten ++ p.tail))
    (hw : ∀ b ∈ parts, b.length = c.sectionHeaderSize) (i : Nat) (b : Bytes) (hi : parts[i]? = some b)
    {v0 v1 v2 v3 v4 v5 v6 v7 v8 v9 : Int}
    (h : structPack c.bigEndian c.sectionFormat [v0, v1, v2, v3, v4, v5, v6, v7, v8, v9] = .ok b) :
    shdrInts (shdr file (elfEhdr c s) i) = [v0, v1, v2, v3, v4, v5, v6, v7, v8, v9] := by
  obtain ⟨a, z, e, ha⟩ := flatten_at hw i b hi
  have := readShdr_pack c h (p.head ++ a) (z ++ p.tail) (c.headerSize + c.sectionHeaderSize * i)
    (by rw [List.length_append, p.head_length, ha])
  have e2 : file = p.head ++ a ++ (b ++ (z ++ p.tail)) := by
    refine hf.trans ?_
    rw [e]
    simp only [List.append_assoc]
  unfold shdr elfEhdr
  simp only
  rw [← e2] at this
  exact this

theorem elf_tail (p : ElfParts c s file) : ∃ pre, file = pre ++ p.tail ∧ pre.length = elfFileBase c s := by
  obtain ⟨parts, hf, hl, hw, -⟩ := elf_table p
  refine ⟨p.head ++ parts.flatten, hf.trans (by rw [List.append_assoc]), ?_⟩
  rw [List.length_append, p.head_length, flatten_length hw, hl]
  rfl

theorem window_drop (pre x : Bytes) (a n : Nat) (h : a + n ≤ x.length) (post : Bytes) :
    window (pre ++ (x ++ post)) (pre.length + a) n = window x a n := by
  unfold window
  rw [List.drop_append, List.drop_eq_nil_of_le (by omega), List.nil_append, Nat.add_sub_cancel_left,
    List.drop_append_of_le_length (by omega), List.take_append_of_le_length (by simp; omega)]

/-- The table of section names and where the names are in it. -/
theorem elf_shstrtab (s : St) :
    (∀ (i : Nat) (name : Str), (s.sections.map Prod.fst)[i]? = some name → ∃ pre post,
      (elfNames s).sectionOffsets[i]? = some pre.length ∧ (elfNames s).shstrtab = pre ++ (utf8 name ++ 0 :: post)) ∧
    (∃ pre post, (elfNames s).shstrtabName = pre.length ∧ (elfNames s).shstrtab = pre ++ (utf8 ".shstrtab".toList ++ 0 :: post)) ∧
    (∃ pre post, (elfNames s).strtabName = pre.length ∧ (elfNames s).shstrtab = pre ++ (utf8 ".strtab".toList ++ 0 :: post)) ∧
    (∃ pre post, (elfNames s).symtabName = pre.length ∧ (elfNames s).shstrtab = pre ++ (utf8 ".symtab".toList ++ 0 :: post)) := by
  have step : ∀ (n : Str) (t : Bytes), (addNames [n] t).2 = t ++ (utf8 n ++ [0]) := by
    intro n t; simp [addNames, encodeUtf8_eq]
  have e : (elfNames s).shstrtab = (addNames (s.sections.map Prod.fst) [0]).2 ++ (utf8 ".shstrtab".toList ++ [0]) ++
      (utf8 ".strtab".toList ++ [0]) ++ (utf8 ".symtab".toList ++ [0]) := by
    unfold elfNames
    simp only [step]
  refine ⟨?_, ?_, ?_, ?_⟩
  · intro i name h
    obtain ⟨pre, post, h1, h2⟩ := addNames_at _ [0] i name h
    refine ⟨pre, post ++ (utf8 ".shstrtab".toList ++ [0]) ++
      (utf8 ".strtab".toList ++ [0]) ++ (utf8 ".symtab".toList ++ [0]), h1, ?_⟩
    rw [e, h2]
    simp only [List.append_assoc, List.cons_append]
  · exact ⟨_, utf8 ".strtab".toList ++ 0 :: (utf8 ".symtab".toList ++ [0]), rfl,
      by rw [e]; simp only [List.append_assoc, List.cons_append, List.nil_append]⟩
  · exact ⟨(addNames (s.sections.map Prod.fst) [0]).2 ++ (utf8 ".shstrtab".toList ++ [0]), utf8 ".symtab".toList ++ [0],
      by unfold elfNames; simp only [step],
      by rw [e]; simp only [List.append_assoc, List.cons_append, List.nil_append]⟩
  · exact ⟨(addNames (s.sections.map Prod.fst) [0]).2 ++ (utf8 ".shstrtab".toList ++ [0]) ++ (utf8 ".strtab".toList ++ [0]), [],
      by unfold elfNames; simp only [step],
      e⟩

theorem shdrInts_inj {h : Shdr} {v0 v1 v2 v3 v4 v5 v6 v7 v8 v9 : Nat}
    (e : shdrInts h = [(v0 : Int), v1, v2, v3, v4, v5, v6, v7, v8, v9]) : h = ⟨v0, v1, v2, v3, v4, v5, v6, v7, v8, v9⟩ := by
  obtain ⟨a0, a1, a2, a3, a4, a5, a6, a7, a8, a9⟩ := h
  simp only [shdrInts, List.cons.injEq, Int.natCast_inj, and_true] at e
  obtain ⟨rfl, rfl, rfl, rfl, rfl, rfl, rfl, rfl, rfl, rfl⟩ := e
  rfl

/-- The table of section names, found through `shstrndx`. -/
theorem elf_names_table (p : ElfParts c s file) :
    shdr file (elfEhdr c s) (s.sections.length + 1) =
      ⟨(elfNames s).shstrtabName, 3, 0x20, 0, elfFileBase c s + s.bytes.length, (elfNames s).shstrtab.length, 0, 0, 0, 0⟩ ∧
    contents file (shdr file (elfEhdr c s) (s.sections.length + 1)) = (elfNames s).shstrtab := by
  obtain ⟨parts, hf, hl, hw, -, -, h1, -, -⟩ := elf_table p
  have e := shdrInts_inj (elf_entry p hf hw _ _ h1 p.hH1)
  refine ⟨e, ?_⟩
  rw [e]
  obtain ⟨pre, hp, hpl⟩ := elf_tail p
  unfold contents
  rw [if_neg (show ¬ ((3 : Nat) = 0 ∨ (3 : Nat) = 8) by decide)]
  simp only
  have : file = (pre ++ s.bytes) ++ ((elfNames s).shstrtab ++ ((elfNames s).strtab ++ p.symtab)) :=
    hp.trans (by unfold ElfParts.tail; simp only [List.append_assoc])
  have w := window_append_mid (pre ++ s.bytes) (elfNames s).shstrtab ((elfNames s).strtab ++ p.symtab)
  rw [← this, List.length_append, hpl] at w
  exact w

/-- The table of symbol names. -/
theorem elf_strtab (p : ElfParts c s file) :
    shdr file (elfEhdr c s) (s.sections.length + 2) =
      ⟨(elfNames s).strtabName, 3, 0x20, 0, elfFileBase c s + s.bytes.length + (elfNames s).shstrtab.length,
        (elfNames s).strtab.length, 0, 0, 0, 0⟩ ∧
    contents file (shdr file (elfEhdr c s) (s.sections.length + 2)) = (elfNames s).strtab := by
  obtain ⟨parts, hf, hl, hw, -, -, -, h2, -⟩ := elf_table p
  have e := shdrInts_inj (elf_entry p hf hw _ _ h2 p.hH2)
  refine ⟨e, ?_⟩
  rw [e]
  obtain ⟨pre, hp, hpl⟩ := elf_tail p
  unfold contents
  rw [if_neg (show ¬ ((3 : Nat) = 0 ∨ (3 : Nat) = 8) by decide)]
  simp only
  have : file = (pre ++ s.bytes ++ (elfNames s).shstrtab) ++ ((elfNames s).strtab ++ p.symtab) :=
    hp.trans (by unfold ElfParts.tail; simp only [List.append_assoc])
  have w := window_append_mid (pre ++ s.bytes ++ (elfNames s).shstrtab) (elfNames s).strtab p.symtab
  rw [← this, List.length_append, List.length_append, hpl] at w
  exact w

/-- The symbol table. -/
theorem elf_symtab (p : ElfParts c s file) :
    shdr file (elfEhdr c s) (s.sections.length + 3) =
      ⟨(elfNames s).symtabName, 2, 0, 0,
        elfFileBase c s + s.bytes.length + (elfNames s).shstrtab.length + (elfNames s).strtab.length,
        p.symtab.length, s.sections.length + 2, 0, 0, if c.is64 then 24 else 16⟩ ∧
    ∃ pre, file = pre ++ (p.symtab ++ []) ∧ pre.length =
      elfFileBase c s + s.bytes.length + (elfNames s).shstrtab.length + (elfNames s).strtab.length := by
  obtain ⟨parts, hf, hl, hw, -, -, -, -, h3⟩ := elf_table p
  constructor
  · apply shdrInts_inj
    rw [elf_entry p hf hw _ _ h3 p.hH3]
    cases c.is64 <;> rfl
  · obtain ⟨pre, hp, hpl⟩ := elf_tail p
    refine ⟨pre ++ s.bytes ++ (elfNames s).shstrtab ++ (elfNames s).strtab,
      hp.trans (by unfold ElfParts.tail; simp only [List.append_assoc, List.append_nil]), ?_⟩
    simp only [List.length_append, hpl]

/-- The fields of a symbol as integers. -/
def symInts (y : Sym) : List Int := [y.name, y.value, y.size, y.info, y.other, y.shndx]

theorem readSym_build {o : Nat} {l : LabelInfo} {b : Bytes} (h : buildSymbol c s.sections o l = .ok b)
    (pre post : Bytes) (k : Nat) (hk : k = pre.length) :
    b.length = (if c.is64 then 24 else 16) ∧ ∃ i, sectionIndex s.sections l = .ok i ∧
      symInts (readSym c.is64 c.bigEndian (pre ++ (b ++ post)) k) = [(o : Int), l.base, 0, 0x10, 0, ((i + 1 : Nat) : Int)] := by
  subst hk
  unfold buildSymbol at h
  cases hi : sectionIndex s.sections l with
  | error e => rw [hi] at h; simp at h
  | ok i =>
    rw [hi] at h
    simp only at h
    obtain ⟨is64, be, t, m, al⟩ := c
    cases is64
    · have h' : structPack be [.I, .I, .I, .B, .B, .H] [(o : Int), l.base, 0, 0x10, 0, ((i + 1 : Nat) : Int)] = .ok b := by
        rw [if_neg Bool.false_ne_true] at h; exact h
      refine ⟨structPack_length h', i, rfl, ?_⟩
      have g := fun k f v (o : Nat) hv hf hu ho => field_of_pack h' k f v hf hv hu pre post o ho
      have t3 : (field be (pre ++ (b ++ post)) (pre.length + 12) Fmt.B.size : Int) = 0x10 :=
        field_of_pack h' 3 .B 0x10 rfl rfl rfl pre post (pre.length + 12) rfl
      simp only [readSym, symInts, Bool.false_eq_true, if_false, List.cons.injEq, and_true]
      exact ⟨g 0 .I _ _ rfl rfl rfl rfl, g 1 .I _ _ rfl rfl rfl rfl, g 2 .I _ _ rfl rfl rfl rfl, t3,
        g 4 .B _ _ rfl rfl rfl rfl, g 5 .H _ _ rfl rfl rfl rfl⟩
    · have h' : structPack be [.I, .B, .B, .H, .Q, .Q] [(o : Int), 0x10, 0, ((i + 1 : Nat) : Int), l.base, 0] = .ok b := by
        rw [if_pos rfl] at h; exact h
      refine ⟨structPack_length h', i, rfl, ?_⟩
      have g := fun k f v (o : Nat) hv hf hu ho => field_of_pack h' k f v hf hv hu pre post o ho
      have t1 : (field be (pre ++ (b ++ post)) (pre.length + 4) Fmt.B.size : Int) = 0x10 :=
        field_of_pack h' 1 .B 0x10 rfl rfl rfl pre post (pre.length + 4) rfl
      simp only [readSym, symInts, if_true, List.cons.injEq, and_true]
      exact ⟨g 0 .I _ _ rfl rfl rfl rfl, g 4 .Q _ _ rfl rfl rfl rfl, g 5 .Q _ _ rfl rfl rfl rfl, t1,
        g 2 .B _ _ rfl rfl rfl rfl, g 3 .H _ _ rfl rfl rfl rfl⟩

end Necro
