import Verif.Props.Tiles
import Verif.Props.LinkHooks
import Verif.Props.Checksums
/-!
# C52, C53: cartridge headers
-/

namespace Necro
open Spec
open M (throw get modify lift forEach)

/-- `blob` is what the arguments stand for: texts in ascii and numbers from 0 to 255. -/
def ByteRow (d : Dialect) (s : St) (args : List Str) (blob : Bytes) : Prop :=
  ∃ items : List (Str × Bytes), items.map Prod.fst = args ∧ blob = items.flatMap Prod.snd ∧
    ∀ i ∈ items, DataItem 1 d.bigEndian (fun t => parseInteger d.sy s.labels t 8 false) i.1 i.2 false

/-- Reading the arguments of a header statement. -/
theorem parseBytes_spec (d : Dialect) : ∀ (args : List Str) (s : St),
    (parseBytesOrAscii d args s).2 = s ∧ ∀ blob, (parseBytesOrAscii d args s).1 = .ok blob → ByteRow d s args blob
  | [], s => ⟨rfl, fun blob h => ⟨[], rfl, by cases h; rfl, fun _ hi => nomatch hi⟩⟩
  | tok :: args, s => by
    obtain ⟨ih1, ih2⟩ := parseBytes_spec d args s
    cases tok with
    | nil => exact ⟨rfl, fun blob h => nomatch h⟩
    | cons c r =>
      have hf : firstChar (c :: r) s = (.ok c, s) := rfl
      unfold parseBytesOrAscii
      rw [bind_eq, hf]
      simp only
      cases hrest : parseBytesOrAscii d args s with
      | mk rest s1 =>
      rw [hrest] at ih1 ih2
      simp only at ih1 ih2
      subst s1
      cases hq : isQuote c with
      | true =>
        simp only [if_true]
        rw [bind_eq, lift_eq]
        cases he : encodeAscii (unquote (c :: r)) with
        | error e => exact ⟨rfl, fun blob h => nomatch h⟩
        | ok out =>
          simp only
          rw [bind_eq, hrest]
          cases rest with
          | error e => exact ⟨rfl, fun blob h => nomatch h⟩
          | ok b =>
            refine ⟨rfl, fun blob h => ?_⟩
            obtain ⟨items, h1, h2, h3⟩ := ih2 b rfl
            cases h
            refine ⟨(c :: r, out) :: items, by simp [h1], by simp [h2], fun i hi => ?_⟩
            rcases List.mem_cons.1 hi with rfl | hi
            · exact .text _ _ ((quoted_iff c r).2 hq) ((goodPack_db d).text _ _ he)
            · exact h3 i hi
      | false =>
        have hnq : ¬ Quoted (c :: r) := by rw [quoted_iff, hq]; simp
        simp only [Bool.false_eq_true, if_false]
        rw [bind_eq, bind_eq]
        have e : parseIntegerM d (c :: r) 8 false s = (parseInteger d.sy s.labels (c :: r) 8 false, s) := rfl
        rw [e]
        cases hp : parseInteger d.sy s.labels (c :: r) 8 false with
        | error e => exact ⟨rfl, fun blob h => nomatch h⟩
        | ok o =>
          cases o with
          | none => exact ⟨rfl, fun blob h => nomatch h⟩
          | some v =>
            have hv := C13_unsigned _ _ _ _ _ (by decide) hp
            obtain ⟨out, g1, g2, g3⟩ := (goodPack_db d).num v hv.1 hv.2
            simp only [lift_eq, g1]
            rw [bind_eq, hrest]
            cases rest with
            | error e => exact ⟨rfl, fun blob h => nomatch h⟩
            | ok b =>
              refine ⟨rfl, fun blob h => ?_⟩
              obtain ⟨items, h1, h2, h3⟩ := ih2 b rfl
              cases h
              refine ⟨(c :: r, out) :: items, by simp [h1], by simp [h2], fun i hi => ?_⟩
              rcases List.mem_cons.1 hi with rfl | hi
              · exact .num _ _ v (by simp) hnq hp g2 g3
              · exact h3 i hi

/-- What a header statement with arguments `args` does to the `size` bytes at `address`. -/
structure FieldSpec (d : Dialect) (address size : Nat) (args : List Str) (s s' : St) : Prop where
  header : s.cartridgeSet = true
  some_arg : args ≠ []
  same : SameOutside address (address + size - 1) s.bytes s'.bytes
  rest : s' = { s with bytes := s'.bytes }
  value : ∃ blob, ByteRow d s args blob ∧ blob.length ≤ size ∧ window s'.bytes address blob.length = blob ∧
    ∀ i, address + blob.length ≤ i → s'.bytes[i]? = s.bytes[i]?

theorem cartridgeFill_spec {d : Dialect} {address size : Nat} {t : Str} {args : List Str} {s s' : St}
    (h : cartridgeFill d address size (t :: args) s = (.ok (), s')) : FieldSpec d address size args s s' := by
  unfold cartridgeFill at h
  rw [bind_eq, get_eq] at h
  simp only at h
  cases hc : s.cartridgeSet with
  | false => rw [hc] at h; cases h
  | true =>
  rw [hc] at h
  simp only [Bool.not_true, Bool.false_eq_true, if_false] at h
  by_cases ha : (t :: args).length < 2
  · rw [if_pos ha] at h; cases h
  rw [if_neg ha] at h
  rw [bind_eq] at h
  obtain ⟨p1, p2⟩ := parseBytes_spec d args s
  simp only [List.drop_succ_cons, List.drop_zero, headerBytes] at h
  cases hp : parseBytesOrAscii d args s with
  | mk r s1 =>
  rw [hp] at h p1 p2
  simp only at p1 p2
  subst p1
  cases r with
  | error e => cases e <;> cases h
  | ok blob =>
  simp only at h
  by_cases hs : blob.length > size
  · rw [if_pos hs] at h; cases h
  rw [if_neg hs] at h
  have hr := (writeAt_result blob address s1).1
  rw [h] at hr
  split at hr
  · rename_i hl
    rw [writeAt_ok blob address s1 hl] at h
    cases h
    have hget : ∀ j : Nat, (s1.bytes.mapIdx (overlay address blob))[j]? = s1.bytes[j]?.map (overlay address blob j) := by
      intro j; rw [List.getElem?_mapIdx]
    have hout : ∀ j : Nat, ¬ (address ≤ j ∧ j < address + blob.length) →
        (s1.bytes.mapIdx (overlay address blob))[j]? = s1.bytes[j]? := by
      intro j hj
      rw [hget]
      cases s1.bytes[j]? with
      | none => rfl
      | some b => simp only [Option.map_some, overlay, if_neg hj]
    refine ⟨hc, by intro h0; subst h0; simp at ha, ⟨by simp, fun i hi => hout i (by omega)⟩, rfl,
      blob, p2 blob rfl, by omega, ?_, fun i hi => hout i (by omega)⟩
    apply List.ext_getElem?
    intro i
    unfold window
    rw [List.getElem?_take]
    split
    · rename_i hi
      have hb : address + blob.length ≤ s1.bytes.length := by
        rcases hl with rfl | hl
        · simp at hi
        · exact hl
      rw [List.getElem?_drop, hget, List.getElem?_eq_getElem (by omega)]
      simp only [Option.map_some, overlay]
      rw [if_pos ⟨by omega, by omega⟩, show address + i - address = i by omega, List.getElem?_eq_getElem hi]
      simp [List.getD, List.getElem?_eq_getElem hi]
    · rw [List.getElem?_eq_none (by omega)]
  · cases hr

/-! ## Game Boy -/

theorem gameboyHeader_length : gameboyHeader.length = 0x50 := by decide

/-- `.cartridge` outside a bounded region: accepted exactly after 256 bytes of output, and
then the header is in the place the console looks for it, with both checksums zero. -/
theorem C52_cartridge {base : Dialect} {env : Env} {rec : Str → M Unit} {depth line : Nat} {t : Str} {s : St}
    (ht : IsDirectiveToken (gameboyOn base) t "cartridge") (hr : s.orgEnd ≤ 0) :
    ((execStmt (gameboyOn base) env depth rec ⟨.directive, [t], line⟩ s).1 = .ok () ↔ s.bytes.length = 0x100) ∧
    ∀ s', execStmt (gameboyOn base) env depth rec ⟨.directive, [t], line⟩ s = (.ok (), s') →
      HasHeader s'.bytes ∧ s'.bytes.length = 0x150 ∧ s'.bytes.take 0x100 = s.bytes ∧ s'.cartridgeSet = true ∧
        s'.org + s'.counter = 0x150 ∧ window s'.bytes 0x14D 3 = [0, 0, 0] := by
  have e : execStmt (gameboyOn base) env depth rec ⟨.directive, [t], line⟩ s = gameboyCartridge base [t] s := by
    rw [execStmt_directive, exec_class (gameboy_key base env (p := ("cartridge", gameboyCartridge base)) (by simp [gameboyDirectives])) ht]
    rfl
  have hchange : changeOrg base 0x100 s.orgEnd s = (.ok (), { s with org := 0x100, counter := 0 }) := by
    unfold changeOrg
    rw [if_neg (by omega)]
    simp only
    rw [if_neg (by omega)]
  have e2 : gameboyCartridge base [t] s = if s.bytes.length ≠ 256 then (.error (.platform "InvalidCartidgeHeaderOffset"), s)
      else (.ok (), { s with org := 0x100, counter := 0x50, bytes := s.bytes ++ gameboyHeader, cartridgeSet := true }) := by
    unfold gameboyCartridge
    rw [bind_eq, get_eq]
    simp only
    split
    · rfl
    · rw [bind_eq, hchange]
      simp only
      rw [bind_eq]
      simp only [appendBytes, modify_eq, gameboyHeader_length]
      rfl
  rw [e, e2]
  by_cases hl : s.bytes.length = 256
  · rw [if_neg (by omega)]
    refine ⟨by simp [hl], fun s' h => ?_⟩
    cases h
    simp only
    have hw : ∀ i n, window (s.bytes ++ gameboyHeader) (0x100 + i) n = window gameboyHeader i n := by
      intro i n
      rw [window_skip _ _ _ _ (by omega), hl, show 0x100 + i - 256 = i by omega]
    refine ⟨⟨?_, ?_, ?_⟩, ?_, ?_, trivial, rfl, ?_⟩
    · rw [List.length_append, hl, gameboyHeader_length]; decide
    · rw [hw 0 4]; decide
    · rw [hw 4 48]; decide
    · rw [List.length_append, hl, gameboyHeader_length]
    · rw [List.take_append_of_le_length (by omega), List.take_of_length_le (by omega)]
    · rw [hw 0x4D 3]; decide
  · rw [if_pos hl]
    exact ⟨by simp [hl], fun s' h => nomatch h⟩

/-- Every field statement changes only its field: the header entry, the logo, the other
fields, the checksums and the rest of the output stay. -/
theorem C52_field {base : Dialect} {env : Env} {rec : Str → M Unit} {depth line : Nat} {t : Str} {args : List Str} {s s' : St}
    {name : String} {address size : Nat} (hf : (name, address, size) ∈ gameboyFields)
    (ht : IsDirectiveToken (gameboyOn base) t name)
    (h : execStmt (gameboyOn base) env depth rec ⟨.directive, t :: args, line⟩ s = (.ok (), s')) :
    FieldSpec base address size (substituteWithDict args s.defines 0) s s' := by
  have hm : (name, cartridgeFill base address size) ∈ gameboyDirectives base env := by
    simp only [gameboyFields, List.mem_cons, List.not_mem_nil, or_false, Prod.mk.injEq] at hf
    rcases hf with ⟨rfl, rfl, rfl⟩ | ⟨rfl, rfl, rfl⟩ | ⟨rfl, rfl, rfl⟩ | ⟨rfl, rfl, rfl⟩ | ⟨rfl, rfl, rfl⟩ | ⟨rfl, rfl, rfl⟩ <;>
      simp [gameboyDirectives]
  rw [execStmt_directive, exec_class (gameboy_key base env hm) ht] at h
  exact cartridgeFill_spec h

/-- Field statements keep the header valid. -/
theorem C52_keeps_header {base : Dialect} {env : Env} {rec : Str → M Unit} {depth line : Nat} {t : Str} {args : List Str} {s s' : St}
    {name : String} {address size : Nat} (hf : (name, address, size) ∈ gameboyFields)
    (ht : IsDirectiveToken (gameboyOn base) t name)
    (h : execStmt (gameboyOn base) env depth rec ⟨.directive, t :: args, line⟩ s = (.ok (), s'))
    (hh : HasHeader s.bytes) : HasHeader s'.bytes ∧ window s'.bytes 0x14D 3 = window s.bytes 0x14D 3 := by
  have hs := (C52_field hf ht h).same
  have ha : 0x134 ≤ address ∧ address + size - 1 ≤ 0x14A := by
    simp only [gameboyFields, List.mem_cons, List.not_mem_nil, or_false, Prod.mk.injEq] at hf
    rcases hf with ⟨rfl, rfl, rfl⟩ | ⟨rfl, rfl, rfl⟩ | ⟨rfl, rfl, rfl⟩ | ⟨rfl, rfl, rfl⟩ | ⟨rfl, rfl, rfl⟩ | ⟨rfl, rfl, rfl⟩ <;> decide
  refine ⟨⟨by rw [hs.1]; exact hh.length, ?_, ?_⟩, ?_⟩
  · rw [← hh.entry]
    exact window_congr hs.1 fun i h1 h2 => hs.2 i (by omega)
  · rw [← hh.logo]
    exact window_congr hs.1 fun i h1 h2 => hs.2 i (by omega)
  · exact window_congr hs.1 fun i h1 h2 => hs.2 i (by omega)

/-- Without a header the statement is rejected. -/
theorem C52_needs_header {base : Dialect} {env : Env} {rec : Str → M Unit} {depth line : Nat} {t : Str} {args : List Str} {s : St}
    {name : String} {address size : Nat} (hf : (name, address, size) ∈ gameboyFields)
    (ht : IsDirectiveToken (gameboyOn base) t name) (hs : s.cartridgeSet = false) :
    execStmt (gameboyOn base) env depth rec ⟨.directive, t :: args, line⟩ s = (.error (.platform "CartidgeHeaderNotSet"), s) := by
  have hm : (name, cartridgeFill base address size) ∈ gameboyDirectives base env := by
    simp only [gameboyFields, List.mem_cons, List.not_mem_nil, or_false, Prod.mk.injEq] at hf
    rcases hf with ⟨rfl, rfl, rfl⟩ | ⟨rfl, rfl, rfl⟩ | ⟨rfl, rfl, rfl⟩ | ⟨rfl, rfl, rfl⟩ | ⟨rfl, rfl, rfl⟩ | ⟨rfl, rfl, rfl⟩ <;>
      simp [gameboyDirectives]
  rw [execStmt_directive, exec_class (gameboy_key base env hm) ht]
  show cartridgeFill base address size (t :: substituteWithDict args s.defines 0) s = _
  unfold cartridgeFill
  rw [bind_eq, get_eq]
  simp only [hs]
  rfl

/-- Inside a bounded region the header can be put elsewhere: the test is on the size of the
output, the padding on the address.  Here 192 bytes are followed by a region from 0x40
with 64 more; `.cartridge` pads 128 bytes first and the header lands at 0x180. -/
theorem C52_misplaced : ∃ s s' : St, s.bytes.length = 0x100 ∧
    execStmt (gameboyOn mos6502) {} 3 (fun _ => pure ()) ⟨.directive, [".cartridge".toList], 1⟩ s = (.ok (), s') ∧
    ¬ HasHeader s'.bytes :=
  ⟨{ bytes := List.replicate 0x100 1, org := 0x40, orgEnd := 0x7FFF, counter := 0x40 },
    (execStmt (gameboyOn mos6502) {} 3 (fun _ => pure ()) ⟨.directive, [".cartridge".toList], 1⟩
      { bytes := List.replicate 0x100 1, org := 0x40, orgEnd := 0x7FFF, counter := 0x40 }).2,
    by decide +kernel, pair_ok (by decide +kernel), fun h => by
      have := h.entry
      revert this
      decide +kernel⟩

/-! ## NES -/

/-- `.cartridge` starts the file with an iNES header for two program banks. -/
theorem C53_cartridge {env : Env} {rec : Str → M Unit} {depth line : Nat} {t : Str} {s : St}
    (ht : IsDirectiveToken nes t "cartridge") :
    ((execStmt nes env depth rec ⟨.directive, [t], line⟩ s).1 = .ok () ↔ s.bytes = []) ∧
    ∀ s', execStmt nes env depth rec ⟨.directive, [t], line⟩ s = (.ok (), s') →
      InesHeader s'.bytes 2 0 ∧ s'.bytes.length = 16 ∧ s'.cartridgeSet = true := by
  have e : execStmt nes env depth rec ⟨.directive, [t], line⟩ s = nesCartridge [t] s := by
    rw [execStmt_directive, exec_class (nes_key env (p := ("cartridge", nesCartridge)) (by simp [nesDirectives])) ht]
    rfl
  have e2 : nesCartridge [t] s = if s.bytes.length ≠ 0 then (.error (.platform "InvalidCartidgeHeaderOffset"), s)
      else (.ok (), { s with counter := s.counter + nesHeader.length, bytes := s.bytes ++ nesHeader, cartridgeSet := true }) := by
    unfold nesCartridge
    rw [bind_eq, get_eq]
    simp only
    split
    · rfl
    · rw [bind_eq]
      simp only [appendBytes, modify_eq]
  rw [e, e2]
  by_cases hl : s.bytes = []
  · rw [if_neg (by simp [hl])]
    refine ⟨by simp [hl], fun s' h => ?_⟩
    cases h
    simp only [hl, List.nil_append]
    exact ⟨⟨by decide, by decide, by decide, by decide⟩, by decide, trivial⟩
  · rw [if_pos (by simpa using hl)]
    exact ⟨by simp [hl], fun s' h => nomatch h⟩

/-- `.cartridge_prg_roms` and `.cartridge_chr_roms` set the bytes at 5 and 6 and nothing else. -/
theorem C53_field {env : Env} {rec : Str → M Unit} {depth line : Nat} {t : Str} {args : List Str} {s s' : St}
    {name : String} {address : Nat} (hf : (name, address) ∈ [("cartridge_prg_roms", 5), ("cartridge_chr_roms", 6)])
    (ht : IsDirectiveToken nes t name)
    (h : execStmt nes env depth rec ⟨.directive, t :: args, line⟩ s = (.ok (), s')) :
    FieldSpec mos6502 address 1 (substituteWithDict args s.defines 0) s s' := by
  have hm : (name, cartridgeFill mos6502 address 1) ∈ nesDirectives mos6502 env := by
    simp only [List.mem_cons, List.not_mem_nil, or_false, Prod.mk.injEq] at hf
    rcases hf with ⟨rfl, rfl⟩ | ⟨rfl, rfl⟩ <;> simp [nesDirectives]
  rw [execStmt_directive, exec_class (nes_key env hm) ht] at h
  exact cartridgeFill_spec h

/-- So the number of program banks can never be set, and `.cartridge_prg_roms` sets the number
of character banks. -/
theorem C53_prg_is_chr {env : Env} {rec : Str → M Unit} {depth line prg chr : Nat} {t : Str} {args : List Str} {s s' : St}
    (ht : IsDirectiveToken nes t "cartridge_prg_roms")
    (h : execStmt nes env depth rec ⟨.directive, t :: args, line⟩ s = (.ok (), s')) (hh : InesHeader s.bytes prg chr) :
    InesHeader s'.bytes prg (s'.bytes.getD 5 0).toNat := by
  have hs := (C53_field (address := 5) (by simp) ht h).same
  refine ⟨by rw [hs.1]; exact hh.length, ?_, ?_, rfl⟩
  · rw [← hh.magic]
    exact window_congr hs.1 fun i h1 h2 => hs.2 i (by omega)
  · rw [← hh.prg]
    simp only [List.getD, hs.2 4 (by omega)]

/-! ## The hypotheses are met -/

def exGb : Str := ".fill 256\n.cartridge\n.cartridge_title \"HELLO\", 1\n.cartridge_type 3\n".toList

example : (assemble (gameboyOn mos6502) {} 3 exGb {}).1 = .ok () := by decide +kernel
example : window (assemble (gameboyOn mos6502) {} 3 exGb {}).2.bytes 0x134 6 = [0x48, 0x45, 0x4C, 0x4C, 0x4F, 1] := by decide +kernel
example : wordAt (link (gameboyOn mos6502) .dummy (assemble (gameboyOn mos6502) {} 3 exGb {}).2).2.bytes 0x14E = 6209 := by decide +kernel

def exNes : Str := ".cartridge\n.cartridge_prg_roms 9\nLDA #1\n".toList
example : (assemble nes {} 3 exNes {}).2.bytes.take 7 = [0x4E, 0x45, 0x53, 0x1A, 2, 9, 0] := by decide +kernel

end Necro
