import Verif.Props.Json
import Verif.Props.Files
import Verif.Props.Reader

/-! C53: what every file returned by the reader satisfies. -/

namespace Metro2

/-! ### Metro 2 text -/

theorem Record.parse_shape (r : Record) (rec : Bytes) (isVar : Bool) :
    (∀ e fs, r = .header e fs → ∃ gs, (r.parse rec isVar).1 = .header e gs) ∧
    (∀ e fs, r = .trailer e fs → ∃ gs, (r.parse rec isVar).1 = .trailer e gs) := by
  constructor
  · rintro e fs rfl; exact ⟨_, rfl⟩
  · rintro e fs rfl; exact ⟨_, rfl⟩

theorem readBases_inv {p : Plan} {enc : Enc} {isVar : Bool} {P : Record → Prop}
    (hP : ∀ rec, P ((newBase enc).parse rec isVar).1) (s : Scanner) (acc : List Record) (ha : ∀ r ∈ acc, P r)
    {bs : List Record} {l : Option Bytes} {t : Scanner} (h : readBases p enc isVar s acc = .ok (bs, l, t)) : ∀ r ∈ bs, P r := by
  induction hn : s.window.length + s.rest.length using Nat.strongRecOn generalizing s acc with
  | _ n ih =>
    rw [readBases] at h
    split at h
    · cases h; exact ha
    · next t' line hs =>
      split at h
      · cases h
      · cases h; exact ha
      · next b _ hb =>
        refine ih _ ?_ t' (acc ++ [b]) ?_ h rfl
        · rw [← hn]; exact Scanner.scan_lt p s hs
        · intro r hr
          rcases List.mem_append.1 hr with hr | hr
          · exact ha r hr
          · rw [List.mem_singleton.1 hr]
            have := hP line
            rw [hb] at this
            exact this

theorem readTrailer_sound {f g : File} (hu : Spec.Uniform f) (ht : Spec.TypedFile f) (hs : Spec.SoundSegments f)
    {line : Bytes} {isVar : Bool} (h : readTrailer f line isVar = .ok g) :
    Spec.Uniform g ∧ Spec.TypedFile g ∧ Spec.SoundSegments g := by
  unfold readTrailer at h
  have h1 := (f.trailer.parse_shape line isVar).2
  have h2 := (C13_record f.trailer ht.trailer line isVar).2
  generalize f.trailer.parse line isVar = q at h h1 h2
  obtain ⟨t, e | x⟩ := q
  · cases h
  · cases h
    obtain ⟨fs, hfs⟩ := hu.trailer
    exact ⟨⟨hu.header, hu.bases, h1 _ fs hfs⟩, ⟨ht.header, ht.bases, h2⟩, hs⟩

theorem readHeader_uniform {f g : File} (hu : Spec.Uniform f) (ht : Spec.TypedFile f) {line : Bytes} {isVar : Bool}
    (h : readHeader f line = .ok (g, isVar)) : Spec.Uniform g ∧ Spec.TypedFile g := by
  unfold readHeader at h
  split at h
  · cases h
  · split at h
    · cases h
    · next packed _ =>
      simp only at h
      have hs := C32_step hu ht (op := .setType (if packed then Enc.packed.name else messageMetroFormat)) trivial (.setType _)
      generalize (f.setType (if packed then Enc.packed.name else messageMetroFormat)).1 = f1 at h hs
      obtain ⟨hu, ht⟩ := hs
      have h1 := (f1.header.parse_shape line (isVariableLength line)).1
      have h2 := (C13_record f1.header ht.header line (isVariableLength line)).2
      generalize f1.header.parse line (isVariableLength line) = q at h h1 h2
      obtain ⟨t, e | x⟩ := q
      · cases h
      · cases h
        obtain ⟨fs, hfs⟩ := hu.header
        exact ⟨⟨h1 _ fs hfs, hu.bases, hu.trailer⟩, ⟨h2, ht.bases, ht.trailer⟩⟩

/-! ### JSON -/

theorem foldlM_inv {α β : Type} {step : α → β → Option α} {P : α → Prop} (hs : ∀ a b a', P a → step a b = some a' → P a')
    (l : List β) : ∀ {a a' : α}, P a → l.foldlM step a = some a' → P a' := by
  induction l with
  | nil => intro a a' ha h; cases h; exact ha
  | cons b l ih =>
    intro a a' ha h
    rw [List.foldlM_cons] at h
    cases hb : step a b with
    | none => rw [hb] at h; cases h
    | some a1 =>
      rw [hb] at h
      exact ih (hs a b a1 ha hb) h

theorem decodeVal_kind {env : JsonEnv} {old v : Val} {j : Json} {k : Kind} (ho : old.hasKind k = true)
    (h : decodeVal env old j = some v) : v.hasKind k = true := by
  cases old with
  | int i =>
    have hi : ∀ a, (Val.int a).hasKind k = true := fun a => by cases k <;> simp_all [Val.hasKind]
    cases j with
    | num lit =>
      simp only [decodeVal] at h
      split at h
      · cases h; exact hi _
      · cases h
    | null => cases h; exact ho
    | _ => cases h
  | str s =>
    have hi : ∀ a, (Val.str a).hasKind k = true := fun a => by cases k <;> simp_all [Val.hasKind]
    cases j with
    | str x => cases h; exact hi _
    | null => cases h; exact ho
    | _ => cases h
  | time t =>
    have hi : ∀ a, (Val.time a).hasKind k = true := fun a => by cases k <;> simp_all [Val.hasKind]
    simp only [decodeVal, Option.map_eq_some_iff] at h
    obtain ⟨_, _, rfl⟩ := h
    exact hi _

theorem decodeStruct_typed {env : JsonEnv} {decl : List (F × FieldDecl)} (hn : (decl.map (·.1)).Nodup) {fs gs : Fields}
    (ht : fs.Typed decl) {j : Json} (h : decodeStruct env decl fs j = some gs) : gs.Typed decl := by
  cases j with
  | null => cases h; exact ht
  | obj kvs =>
    refine foldlM_inv (P := fun fs => Fields.Typed decl fs) ?_ kvs ht h
    intro fs kv gs ht h
    unfold decodeMember at h
    split at h
    · cases h; exact ht
    · next f hf =>
      split at h
      · cases h
      · next old ho =>
        rw [Option.map_eq_some_iff] at h
        obtain ⟨v, hv, rfl⟩ := h
        refine ht.set (f := f) fun d hd => ?_
        obtain ⟨w, hw, hk⟩ := ht.get hn hd
        rw [ho] at hw
        cases hw
        exact decodeVal_kind hk hv
  | _ => cases h

/-! ### Segments -/

theorem soundSegs_add {g g' : Segs} (hg : Spec.SoundSegs g) {s : Seg} (hs : s.fields.Typed s.kind.struct) {e : Option Err}
    (h : g.add s = (g', e)) : Spec.SoundSegs g' := by
  unfold Segs.add at h
  cases hv : s.validate with
  | some e => rw [hv] at h; cases h; exact hg
  | none =>
    rw [hv] at h
    cases h
    intro k x hx
    have hk := hg k x
    rw [segmentName_eq] at hx hk
    rw [Segs.get_store] at hx
    split at hx
    · next he =>
      subst he
      unfold afterStores at hx
      split at hx
      · rcases List.mem_append.1 hx with hx | hx
        · exact hk hx
        · rw [List.mem_singleton.1 hx]; exact ⟨rfl, hs, hv⟩
      · have hx : x ∈ [s] := hx
        rw [List.mem_singleton.1 hx]; exact ⟨rfl, hs, hv⟩
    · exact hk hx

theorem soundSegs_clear {g : Segs} (hg : Spec.SoundSegs g) : Spec.SoundSegs { g with j1 := [], j2 := [] } := by
  intro k x hx
  have hk := hg k x
  rw [segmentName_eq] at hx hk
  cases k
  · cases hx
  · cases hx
  all_goals exact hk hx

theorem soundSegs_empty : Spec.SoundSegs {} := by
  intro k x hx
  rw [segmentName_eq] at hx
  cases k <;> cases hx

theorem readSegs_sound {isVar : Bool} (fuel : Nat) {g g' : Segs} {off : Nat} {rec : Bytes} {e : Except Err Nat}
    (hg : Spec.SoundSegs g) (h : readSegs isVar fuel g off rec = (g', e)) : Spec.SoundSegs g' := by
  induction fuel generalizing g off rec with
  | zero => cases h; exact hg
  | succ fuel ih =>
    rw [readSegs] at h
    split at h
    · split at h
      · cases h; exact hg
      · split at h
        · cases h; exact hg
        · next k hk =>
          have hp := (seg_parse_safe (s := Seg.new k) (Seg.new_typed k) rec isVar).2.1
          have hp' := (seg_parse_safe (s := Seg.new k) (Seg.new_typed k) rec isVar).1
          rw [← hp'] at hp
          generalize (Seg.new k).parse rec isVar = q at h hp
          obtain ⟨s, e' | n⟩ := q
          · cases h; exact hg
          · simp only at h hp
            cases ha : g.add s with
            | mk g1 e1 =>
              have := soundSegs_add hg hp ha
              rw [ha] at h
              cases e1 with
              | some e1 => cases h; exact this
              | none => exact ih this h
    · cases h; exact hg

theorem base_parse_sound {enc : Enc} {fs : Fields} {g : Segs} (hg : Spec.SoundSegs g) (rec : Bytes) (isVar : Bool) :
    ∃ fs' g', ((Record.base enc fs g).parse rec isVar).1 = .base enc fs' g' ∧ Spec.SoundSegs g' := by
  cases enc with
  | character =>
    refine ⟨_, _, rfl, ?_⟩
    unfold parseBaseCharacter
    split
    · exact hg
    · generalize parseLoop _ _ _ _ _ _ = q
      obtain ⟨fs', e | _⟩ := q
      · simp only
        generalize (if fs'.int .BlockDescriptorWord > 0 then 426 + 4 else 426 : Nat) = off
        split
        · exact soundSegs_clear hg
        · split
          · exact soundSegs_clear hg
          · next tail _ =>
            cases hr : readApplicableSegments { g with j1 := [], j2 := [] } tail isVar with
            | mk g' e =>
              have := readSegs_sound _ (soundSegs_clear hg) hr
              cases e with
              | error e => exact this
              | ok n =>
                simp only
                split
                · exact this
                · split
                  · exact this
                  · exact this
      · exact hg
  | packed =>
    refine ⟨_, _, rfl, ?_⟩
    unfold parseBasePacked
    split
    · exact hg
    · generalize parseLoop _ _ _ _ _ _ = q
      obtain ⟨fs', e | _⟩ := q
      · simp only
        split
        · exact soundSegs_clear hg
        · split
          · exact soundSegs_clear hg
          · next tail _ =>
            cases hr : readApplicableSegments { g with j1 := [], j2 := [] } tail isVar with
            | mk g' e =>
              have := readSegs_sound _ (soundSegs_clear hg) hr
              cases e with
              | error e => exact this
              | ok n =>
                simp only
                split
                · exact this
                · exact this
      · exact hg

theorem decodeSeg_sound {env : JsonEnv} {name : Bytes} {g g' : Segs} {j : Json} (hg : Spec.SoundSegs g)
    (h : decodeSeg env name g j = some g') : Spec.SoundSegs g' := by
  unfold decodeSeg at h
  split at h
  · cases h; exact hg
  · next k hk =>
    split at h
    · cases h
    · next fs hfs =>
      have ht := decodeStruct_typed (layout_segment k).structNames (Seg.new_typed k) hfs
      cases ha : g.add ⟨k, fs⟩ with
      | mk g1 e =>
        have := soundSegs_add hg (s := ⟨k, fs⟩) ht ha
        rw [ha] at h
        cases e with
        | some e => cases h
        | none => cases h; exact this

theorem decodeBase_sound {env : JsonEnv} {visit : List (Bytes × Json) → List (Bytes × Json)} {fs fs' : Fields} {g g' : Segs}
    {j : Json} (ht : fs.Typed baseSegmentStruct) (hg : Spec.SoundSegs g) (h : decodeBase env visit fs g j = some (fs', g')) :
    fs'.Typed baseSegmentStruct ∧ Spec.SoundSegs g' := by
  unfold decodeBase at h
  split at h
  · cases h
  · next kvs _ =>
    refine foldlM_inv (P := fun p : Fields × Segs => p.1.Typed baseSegmentStruct ∧ Spec.SoundSegs p.2) ?_ (visit kvs)
      ⟨ht, soundSegs_clear hg⟩ h
    rintro ⟨fs, g⟩ kv q ⟨ht, hg⟩ h
    unfold decodeBaseEntry at h
    split at h
    · rw [Option.map_eq_some_iff] at h
      obtain ⟨fs1, h1, rfl⟩ := h
      exact ⟨decodeStruct_typed (layout_base .character).structNames (zeroFields_typed _) h1, hg⟩
    · split at h
      · split at h
        · cases h
        · next xs _ =>
          rw [Option.map_eq_some_iff] at h
          obtain ⟨g1, h1, rfl⟩ := h
          exact ⟨ht, foldlM_inv (P := Spec.SoundSegs) (fun a b a' ha hb => decodeSeg_sound ha hb) xs hg h1⟩
      · rw [Option.map_eq_some_iff] at h
        obtain ⟨g1, h1, rfl⟩ := h
        exact ⟨ht, decodeSeg_sound hg h1⟩

/-! ### Files -/

theorem readFile_sound {p : Plan} {data : Bytes} {f : File} (h : readFile p data = .ok f) :
    Spec.Uniform f ∧ Spec.TypedFile f ∧ Spec.SoundSegments f := by
  unfold readFile at h
  simp only at h
  split at h
  · cases h
  · next s line hs =>
    cases hh : readHeader (newFile .character) line with
    | error e => rw [hh] at h; cases h
    | ok q =>
      obtain ⟨f1, isVar⟩ := q
      rw [hh] at h
      simp only at h
      obtain ⟨hu0, ht0⟩ := C32_reachable (.new .character)
      obtain ⟨hu, ht⟩ := readHeader_uniform hu0 ht0 hh
      cases hb : readBases p f1.format isVar s [] with
      | error e => rw [hb] at h; cases h
      | ok q =>
        obtain ⟨bs, l, t⟩ := q
        rw [hb] at h
        have hP := readBases_inv (P := fun r => Spec.IsBase f1.format r ∧ Spec.WellTyped r ∧ ∀ enc fs g, r = .base enc fs g → Spec.SoundSegs g)
          (fun rec => ⟨(newBase_parse_isBase f1.format rec isVar).1, (newBase_parse_isBase f1.format rec isVar).2, by
            obtain ⟨fs, g, h1, h2⟩ := base_parse_sound (enc := f1.format) (fs := zeroFields baseSegmentStruct) soundSegs_empty rec isVar
            rintro enc' fs' g' h3
            rw [newBase, h1] at h3
            cases h3
            exact h2⟩) s [] (by simp) hb
        have hu2 : Spec.Uniform { f1 with bases := bs } := ⟨hu.header, fun r hr => (hP r hr).1, hu.trailer⟩
        have ht2 : Spec.TypedFile { f1 with bases := bs } := ⟨ht.header, fun r hr => (hP r hr).2.1, ht.trailer⟩
        have hs2 : Spec.SoundSegments { f1 with bases := bs } := fun enc fs g hr => (hP _ hr).2.2 enc fs g rfl
        cases l with
        | some line => exact readTrailer_sound hu2 ht2 hs2 h
        | none =>
          simp only at h
          split at h
          · cases h
          · exact readTrailer_sound hu2 ht2 hs2 h

theorem decodeBases_sound {env : JsonEnv} {visits : Nat → List (Bytes × Json) → List (Bytes × Json)} {enc : Enc} (xs : List Json) :
    ∀ {n : Nat} {acc bs : List Record},
    (∀ r ∈ acc, Spec.IsBase enc r ∧ Spec.WellTyped r ∧ ∀ e fs g, r = .base e fs g → Spec.SoundSegs g) →
    decodeBases env visits enc n xs acc = some bs →
    ∀ r ∈ bs, Spec.IsBase enc r ∧ Spec.WellTyped r ∧ ∀ e fs g, r = .base e fs g → Spec.SoundSegs g := by
  induction xs with
  | nil => intro n acc bs ha h; cases h; exact ha
  | cons x xs ih =>
    intro n acc bs ha h
    rw [decodeBases] at h
    split at h
    · cases h
    · next b hb =>
      refine ih ?_ h
      intro r hr
      rcases List.mem_append.1 hr with hr | hr
      · exact ha r hr
      · rw [List.mem_singleton.1 hr]
        simp only [newBase, Record.ofJson, Option.map_eq_some_iff] at hb
        obtain ⟨⟨fs, g⟩, h1, rfl⟩ := hb
        obtain ⟨h2, h3⟩ := decodeBase_sound (zeroFields_typed _) soundSegs_empty h1
        refine ⟨⟨_, _, rfl⟩, h2, ?_⟩
        rintro e fs' g' h4
        cases h4
        exact h3

theorem ofJson_sound {env : JsonEnv} {visits : Nat → List (Bytes × Json) → List (Bytes × Json)} {f g : File} {j : Json}
    (hu : Spec.Uniform f) (ht : Spec.TypedFile f) (hs : Spec.SoundSegments f) (h : f.ofJson env visits j = some g) :
    Spec.Uniform g ∧ Spec.TypedFile g ∧ Spec.SoundSegments g := by
  unfold File.ofJson at h
  split at h
  · cases h
  · next kvs _ =>
    refine foldlM_inv (P := fun f => Spec.Uniform f ∧ Spec.TypedFile f ∧ Spec.SoundSegments f) ?_ (visits 0 kvs) ⟨hu, ht, hs⟩ h
    rintro f kv g ⟨hu, ht, hs⟩ h
    obtain ⟨fmt, hfs, bs, tfs, rfl, hb⟩ := hu.elim
    unfold decodeFileEntry at h
    split at h
    · simp only [Record.ofJson, Option.map_eq_some_iff] at h
      obtain ⟨r, ⟨fs, h1, rfl⟩, rfl⟩ := h
      exact ⟨⟨⟨_, rfl⟩, hu.bases, hu.trailer⟩,
        ⟨decodeStruct_typed (layout_header .character).structNames ht.header h1, ht.bases, ht.trailer⟩, hs⟩
    · split at h
      · simp only [Record.ofJson, Option.map_eq_some_iff] at h
        obtain ⟨r, ⟨fs, h1, rfl⟩, rfl⟩ := h
        exact ⟨⟨hu.header, hu.bases, ⟨_, rfl⟩⟩,
          ⟨ht.header, ht.bases, decodeStruct_typed (layout_trailer .character).structNames ht.trailer h1⟩, hs⟩
      · split at h
        · split at h
          · cases h
          · next xs _ =>
            rw [Option.map_eq_some_iff] at h
            obtain ⟨bs', h1, rfl⟩ := h
            have := decodeBases_sound (enc := fmt) xs (fun r hr => ⟨hu.bases r hr, ht.bases r hr, fun e fs g he => hs e fs g (he ▸ hr)⟩) h1
            exact ⟨⟨hu.header, fun r hr => (this r hr).1, hu.trailer⟩, ⟨ht.header, fun r hr => (this r hr).2.1, ht.trailer⟩,
              fun e fs g hr => (this _ hr).2.2 e fs g rfl⟩
        · cases h; exact ⟨hu, ht, hs⟩

/-- C53. Every file that `NewFileFromReader` returns, from Metro 2 text or from JSON, from any input, is of one format throughout, its records have the types of
their structs, and all its segments are in their places and valid. -/
theorem C53_reader (env : JsonEnv) (visits : Nat → List (Bytes × Json) → List (Bytes × Json)) (first : Bytes → Option Json)
    (p : Plan) (data : Bytes) (broken : Bool) (f : File)
    (h : newFileFromReader (readJson env visits first) p data broken = .ok f) :
    Spec.Uniform f ∧ Spec.TypedFile f ∧ Spec.SoundSegments f := by
  unfold newFileFromReader at h
  split at h
  · cases h
  · simp only at h
    split at h
    · unfold readJson at h
      split at h
      · cases h
      · split at h
        · cases h
        · next d _ =>
          split at h
          · cases h
          · next g hg =>
            cases h
            obtain ⟨hu, ht⟩ := C32_reachable (.new (detectFormat d))
            exact ofJson_sound hu ht (by simp [Spec.SoundSegments, newFile]) hg
    · exact readFile_sound h

open Samples in
example : newFileFromReader (readJson isoEnv backwards fun _ => none) slow (fixedFile.string true) false = .ok fixedFile ∧
    fixedFile.bases ≠ [] :=
  ⟨C41_read false _ fixedFile_good true (fixedFile_noBrace true) _ _ slow_progress, by decide⟩

end Metro2
