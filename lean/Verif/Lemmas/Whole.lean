import Verif.Lemmas.Visits
import Verif.Lemmas.Console
/-!
# A line of a program that builds: what holds for every assembler of the package
-/

namespace Necro
open Spec
open M (throw get modify lift forEach times)

/-- What the theorems need of an assembler; the first `head` bytes of the output may be changed by later directives. -/
structure Sound (d : Dialect) (head : Nat) : Prop where
  tidy : TidyLines d
  custom : ∀ env (Good : Reloc → Nat → Prop) (R : St → St → Prop), RefRel Good R → CustomOk d env R
  kept : ∀ env a, head ≤ a → CustomKeeps d env (Kept a)
  pc : ∀ env, CustomKeeps d env (fun s s' => 0 ≤ s.org ∧ 0 ≤ s.counter → 0 ≤ s'.org ∧ 0 ≤ s'.counter)

/-- What is known of an instruction line of a program that is linked: it has bytes, its references lie in them, and no other
reference touches them. -/
structure LinkedLine (d : Dialect) (s : St) (t : Str) (rest : List Str) (s' s'' : St) : Prop where
  pc : 0 ≤ s.pc
  prog : InProgram d s t rest s'
  own : ∃ blob rels, Emits d (ctxOf d s) t rest blob rels ∧ LinksOwn d s' s'' s.bytes.length blob.length rels ∧
    ∀ r ∈ rels, r.offset + r.size ≤ blob.length

/-- What is known of an instruction line of a program, whatever happens to its references. -/
theorem Sound.visit {d : Dialect} {head : Nat} (hd : Sound d head) {env : Env} {depth : Nat} {codes : List Str} {s s1 s' : St} {t : Str} {rest : List Str}
    (hv : Visits d env s t rest s1 depth (.sources codes) d.init s') (hnt : ∀ e ∈ s'.relocs, e.2.hook = none) (hh : head ≤ s.bytes.length) :
    0 ≤ s.pc ∧ InProgram d s t rest s' ∧ (∀ e ∈ s'.relocs, Ordinary e.2) ∧ (∀ e ∈ s'.relocs, Workable e.2) ∧ (s'.relocs.map Prod.fst).Nodup ∧
    ∃ blob rels, Emits d (ctxOf d s) t rest blob rels ∧ s1 = emitted s blob rels ∧
      (∀ f ∈ s'.relocs, ∀ j, s.bytes.length ≤ j → j < s.bytes.length + blob.length → Covers f j → ∃ r ∈ rels, f = (s.bytes.length + r.offset, r)) ∧
      ∀ r ∈ rels, r.offset + r.size ≤ blob.length := by
  have hgood := goodLines_of hd.tidy
  have hcu := hd.custom env
  obtain ⟨hin, hin1, hend⟩ := hv.refRel (rel_enclosed Workable) goodData hgood (hcu _ _ (rel_enclosed _))
  have hin := hin (by intro e he; cases he)
  have hend := hend (hin1 hin)
  have hnew : NewRefs s1 s' := (hv.refRel (rel_newRefs _) goodData hgood (hcu _ _ (rel_newRefs (FitsIn Workable)))).2.2
  have hkept : Kept s.bytes.length s1 s' := (hv.asmRel (rel_kept d _) (hd.kept env s.bytes.length hh)).2.2
  have hpc : 0 ≤ s.pc := by
    have := (hv.asmRel (rel_pc_nonneg d) (hd.pc env)).1 ⟨by simp [Dialect.init], by simp [Dialect.init]⟩
    simp only [St.pc] at this ⊢; omega
  obtain ⟨n, tokens, ln, hrec, hsub, hmac, h1'⟩ := hv.line_run
  obtain ⟨blob, rels, hem, hs1⟩ := (execInstr_emits d n tokens ln s s1 hrec t rest hsub hmac).1 h1'
  refine ⟨hpc, .mk hrec hsub hmac h1' hkept, fun e he => (hend e he).2.ordinary (hnt e he), fun e he => (hend e he).2, ?_, blob, rels, hem, hs1, ?_, ?_⟩
  · obtain ⟨k1, k2, k3⟩ := hv.asmRel (rel_kept d head) (hd.kept env head (Nat.le_refl _))
    exact k3.nodup (k2.nodup (k1.nodup (by simp [Dialect.init])))
  · intro f hf j hj1 hj2 hc
    have hbytes : s1.bytes.length = s.bytes.length + blob.length := by rw [hs1]; simp [emitted]
    rcases hnew.2 f hf with hf | hf
    · rw [hs1] at hf
      rcases mem_foldl_addReloc hf with hf | hf
      · have h3 : f.1 + f.2.size ≤ s.bytes.length := (hin f hf).1
        exact absurd hc (by unfold Covers; omega)
      · exact hf
    · exact absurd hc (by unfold Covers; omega)
  · intro r hr
    cases hem with
    | fixed h1 h2 => cases hr
    | handler h1 h2 => exact (hgood _ _ _ _ _ _ h1 h2 r hr).1

theorem Sound.line {d : Dialect} {head : Nat} (hd : Sound d head) {env : Env} {depth : Nat} {codes : List Str} {s s' s'' : St} {t : Str} {rest : List Str}
    (h : BuiltLine d env depth codes s t rest s' s'') (hh : head ≤ s.bytes.length) : LinkedLine d s t rest s' s'' := by
  obtain ⟨s1, hv⟩ := h.visits
  obtain ⟨h1, h2, h3, -, h5, blob, rels, h6, -, h7, h8⟩ := hd.visit hv h.noText hh
  exact ⟨h1, h2, blob, rels, h6, ⟨h.linked, h3, h5, h7⟩, h8⟩

/-- The conditions of the properties about one reference that shares no byte with another. -/
theorem Spec.LinksOwn.alone {d : Dialect} {s s' : St} {a n : Nat} {r : Reloc} (h : LinksOwn d s s' a n [r]) (hr : r.offset + r.size ≤ n) :
    LinksAlone d s s' (a + r.offset) r where
  ok := h.ok
  ordinary := h.ordinary
  nodup := h.nodup
  apart := fun f hf hne j hj => by
    obtain ⟨r', hr', rfl⟩ := h.own f hf j (by have := hj.1.1; simp only at this; omega) (by have := hj.1.2; simp only at this; omega) hj.2
    cases List.mem_singleton.1 hr'
    exact hne rfl

/-! ## the assemblers -/

theorem sound_processor {d : Dialect} (hp : Processor d) : Sound d 0 where
  tidy := tidy_processor hp
  custom := fun env _ _ h => processor_custom hp env h
  kept := fun env a _ key f hf ts s => (processor_keeps hp env key f hf ts s).kept a
  pc := fun env => by
    cases hp with
    | x86 =>
      intro key f hf ts
      simp only [x86] at hf
      split at hf
      · cases hf
        have hd := (rel_pc_nonneg x86).toDataRel
        unfold x86Bits
        split
        · refine .bind hd (.readOnly hd (parseIntegerM_state _ _ _ _)) fun v => ?_
          split
          · split
            · exact fun s h => h
            · exact .throw hd _
          · exact .throw hd _
        · exact .throw hd _
      · cases hf
    | _ => exact noCustom (fun _ => rfl) _

theorem ok_writeAt {Good : Reloc → Nat → Prop} {R : St → St → Prop} (h : RefRel Good R) (blob : Bytes) : ∀ x, OkKeeps R (writeAt x blob) := by
  induction blob with
  | nil => intro x; exact .pure h ()
  | cons b blob ih =>
    intro x
    refine .bind h (f := fun _ => writeAt (x + 1) blob) ?_ fun _ => ih _
    intro s a s' hs
    unfold setByte at hs
    split at hs
    · cases hs; exact h.same _ _ rfl (by simp)
    · cases hs

theorem ok_fill {Good : Reloc → Nat → Prop} {R : St → St → Prop} (h : RefRel Good R) (d : Dialect) (address size : Nat) (l : List Str) :
    OkKeeps R (cartridgeFill d address size l) := by
  refine .bind h (.get h) fun s => ?_
  split
  · exact .throw _
  split
  · exact .throw _
  refine .bind h (.readOnly h fun s => ?_) fun blob => ?_
  · have := (parseBytes_spec d (l.drop 1) s).1
    unfold headerBytes
    split
    · next e => rw [e] at this; rw [show _ = s from this]
    · next e => rw [this]
  split
  · exact .throw _
  · exact ok_writeAt h blob address

theorem ok_tiles {Good : Reloc → Nat → Prop} {R : St → St → Prop} (h : RefRel Good R) (env : Env) (sizeOk : Nat → Nat → Bool) (cells : Image → Nat × Nat)
    (convert : Image → Nat → Nat → Except Err Bytes) (l : List Str) : OkKeeps R (tilesDirective env sizeOk cells convert l) := by
  unfold tilesDirective
  split
  · refine .bind h (.readOnly h (fun _ => stringify_state ..)) fun name => .bind h (.readOnly h (fun s => ?_)) fun img => ?_
    · unfold openFile
      cases env.image name <;> rfl
    split
    · exact .throw _
    split
    · exact .throw _
    exact .forEach h fun cy _ => .forEach h fun cx _ => .bind h (.lift h _) fun blob => .appendBytes h blob
  · exact .throw _

theorem ok_class {d : Dialect} {l : List (String × (List Str → M Unit))} {R : St → St → Prop}
    (h : ∀ p ∈ l, ∀ ts, OkKeeps R (p.2 ts)) {key : Str} {f : List Str → M Unit} (hf : classDirectives d l key = some f) (ts : List Str) :
    OkKeeps R (f ts) := by
  have := mem_of_dget hf
  obtain ⟨p, hp, he⟩ := List.mem_map.1 this
  cases he
  exact h p hp ts

theorem ok_changeOrg' {Good : Reloc → Nat → Prop} {R : St → St → Prop} (h : RefRel Good R) (d : Dialect) (x y : Int) : OkKeeps R (changeOrg d x y) := by
  intro s a s' hs
  unfold changeOrg at hs
  split at hs
  · cases hs
  · simp only at hs
    repeat' split at hs
    all_goals first
      | (cases hs; done)
      | (cases hs; exact h.same _ _ rfl (by simp))

/-- What the fill directive does besides: nothing to the layout. -/
theorem pc_fill (d : Dialect) {R : St → St → Prop} (hd : DataRel R) (hb : ∀ s b, R s { s with bytes := b }) (address size : Nat) (l : List Str) :
    Keeps R (cartridgeFill d address size l) := by
  have hw : ∀ (blob : Bytes) x, Keeps R (writeAt x blob) := by
    intro blob
    induction blob with
    | nil => intro x s; exact hd.refl s
    | cons b blob ih =>
      intro x
      refine .bind hd (f := fun _ => writeAt (x + 1) blob) ?_ fun _ => ih _
      intro s
      unfold setByte
      split
      · exact hb _ _
      · exact hd.refl s
  refine .bind hd (.get hd) fun s => ?_
  split
  · exact .throw hd _
  split
  · exact .throw hd _
  refine .bind hd ?_ fun blob => ?_
  · intro s
    have := (parseBytes_spec d (l.drop 1) s).1
    unfold headerBytes
    split
    · next e => rw [e] at this; rw [show _ = s from this]; exact hd.refl s
    · next e => rw [this]; exact hd.refl s
  split
  · exact .throw hd _
  · exact hw blob address

theorem sound_nes : Sound nes 7 where
  tidy := fun key f tokens hf => tidy_mos6502 key f tokens hf
  custom := fun env Good R h key f hf ts => by
    refine ok_class (d := mos6502) (l := nesDirectives mos6502 env) (fun p hp ts => ?_) hf ts
    simp only [nesDirectives, List.mem_cons, List.not_mem_nil, or_false] at hp
    rcases hp with rfl | rfl | rfl | rfl
    · refine .bind h (.get h) fun s => ?_
      split
      · exact .throw _
      · exact .bind h (.appendBytes h _) fun _ => .modify h _ (fun _ => rfl) (fun _ => Nat.le_refl _)
    · exact ok_fill h mos6502 _ _ ts
    · exact ok_fill h mos6502 _ _ ts
    · show OkKeeps R (nesPatternTable env ts)
      unfold nesPatternTable
      exact ok_tiles h env _ _ _ ts
  kept := fun env _ ha => nes_custom env ha
  pc := fun env key f hf ts => by
    refine custom_class (d := mos6502) (l := nesDirectives mos6502 env) (fun p hp ts => ?_) hf ts
    have hd := (rel_pc_nonneg nes).toDataRel
    simp only [nesDirectives, List.mem_cons, List.not_mem_nil, or_false] at hp
    rcases hp with rfl | rfl | rfl | rfl
    · refine .bind hd (.get hd) fun s => ?_
      split
      · exact .throw hd _
      · exact .bind hd (.appendBytes hd _) fun _ => fun s h => h
    · exact pc_fill mos6502 hd (fun _ _ h => h) _ _ ts
    · exact pc_fill mos6502 hd (fun _ _ h => h) _ _ ts
    · exact kept_tiles hd env _ _ _ ts

theorem sound_sms : Sound (smsOn z80) 0 where
  tidy := fun key f tokens hf => tidy_z80 key f tokens hf
  custom := fun env Good R h key f hf ts => by
    refine ok_class (d := z80) (l := [("tiles", smsTiles env)]) (fun p hp ts => ?_) hf ts
    cases List.mem_singleton.1 hp
    show OkKeeps R (smsTiles env ts)
    unfold smsTiles
    exact ok_tiles h env _ _ _ ts
  kept := fun env a _ => sms_custom z80 env (rel_kept z80 a).toDataRel
  pc := fun env => sms_custom z80 env (rel_pc_nonneg z80).toDataRel

theorem sound_gameboy : Sound (gameboyOn lr35902) 0x14B where
  tidy := fun key f tokens hf => tidy_lr35902 key f tokens hf
  custom := fun env Good R h key f hf ts => by
    refine ok_class (d := lr35902) (l := gameboyDirectives lr35902 env) (fun p hp ts => ?_) hf ts
    simp only [gameboyDirectives, List.mem_cons, List.not_mem_nil, or_false] at hp
    rcases hp with rfl | rfl | rfl | rfl | rfl | rfl | rfl | rfl
    · refine .bind h (.get h) fun s => ?_
      split
      · exact .throw _
      · exact .bind h (ok_changeOrg' h lr35902 _ _) fun _ => .bind h (.appendBytes h _) fun _ => .modify h _ (fun _ => rfl) (fun _ => Nat.le_refl _)
    · exact ok_fill h lr35902 _ _ ts
    · exact ok_fill h lr35902 _ _ ts
    · exact ok_fill h lr35902 _ _ ts
    · exact ok_fill h lr35902 _ _ ts
    · exact ok_fill h lr35902 _ _ ts
    · exact ok_fill h lr35902 _ _ ts
    · show OkKeeps R (gameboyTiles env ts)
      unfold gameboyTiles
      exact ok_tiles h env _ _ _ ts
  kept := fun env _ ha => gameboy_custom lr35902 env ha
  pc := fun env key f hf ts => by
    refine custom_class (d := lr35902) (l := gameboyDirectives lr35902 env) (fun p hp ts => ?_) hf ts
    have hd := (rel_pc_nonneg lr35902).toDataRel
    simp only [gameboyDirectives, List.mem_cons, List.not_mem_nil, or_false] at hp
    rcases hp with rfl | rfl | rfl | rfl | rfl | rfl | rfl | rfl
    · refine .bind hd (.get hd) fun s => ?_
      split
      · exact .throw hd _
      · refine .bind hd ?_ fun _ => .bind hd (.appendBytes hd _) fun _ => fun s h => h
        intro s h
        unfold changeOrg
        split
        · exact h
        · simp only
          repeat' split
          all_goals first
            | exact h
            | simp
    · exact pc_fill lr35902 hd (fun _ _ h => h) _ _ ts
    · exact pc_fill lr35902 hd (fun _ _ h => h) _ _ ts
    · exact pc_fill lr35902 hd (fun _ _ h => h) _ _ ts
    · exact pc_fill lr35902 hd (fun _ _ h => h) _ _ ts
    · exact pc_fill lr35902 hd (fun _ _ h => h) _ _ ts
    · exact pc_fill lr35902 hd (fun _ _ h => h) _ _ ts
    · exact kept_tiles hd env _ _ _ ts

end Necro
