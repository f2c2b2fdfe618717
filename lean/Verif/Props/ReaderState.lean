import Verif.Model.ReaderState
import Verif.Spec.NextFile
import Verif.Props.Reader
import Verif.Props.Reading
import Verif.Props.Reuse
import Verif.Props.Leftover

/-! Property C121: a reader that is asked again. -/

namespace Metro2

open Samples

/-! ### The first call -/

theorem start_readHeader (f : File) (line : Bytes) :
    readHeader f line = match f.start line with
      | (_, .error e) => .error e
      | (g, .ok isVar) => .ok (g, isVar) := by
  unfold readHeader File.start
  split
  · rfl
  · rcases isPacked line with e | b
    · rfl
    · simp only
      rcases (f.setType (if b = true then Enc.packed.name else messageMetroFormat)).1.header.parse line (isVariableLength line) with ⟨h, e | n⟩ <;> rfl

theorem readLoop_none {p : Plan} {enc : Enc} {isVar : Bool} {s t : Scanner} {acc : List Record}
    (h : s.scan p = (t, none)) : readLoop p enc isVar s acc = (acc, t, .ok none) := by
  rw [readLoop]
  split
  · next h' => rw [h] at h'; cases h'; rfl
  · next h' => rw [h] at h'; simp at h'

theorem readLoop_some {p : Plan} {enc : Enc} {isVar : Bool} {s t : Scanner} {acc : List Record} {line : Bytes}
    (h : s.scan p = (t, some line)) : readLoop p enc isVar s acc =
      match (newBase enc).parse line isVar with
      | (_, .error .panic) => (acc, t, .error .panic)
      | (_, .error _) => (acc, t, .ok (some line))
      | (b, .ok _) => readLoop p enc isVar t (acc ++ [b]) := by
  rw [readLoop]
  split
  · next h' => rw [h] at h'; simp at h'
  · next h' => rw [h] at h'; cases h'; rfl

theorem readLoop_readBases (p : Plan) (enc : Enc) (isVar : Bool) (s : Scanner) (acc : List Record) :
    readBases p enc isVar s acc = match readLoop p enc isVar s acc with
      | (_, _, .error e) => .error e
      | (bs, t, .ok l) => .ok (bs, l, t) := by
  induction s, acc using readLoop.induct p enc isVar with
  | case1 s acc t h => rw [readLoop_none h, readBases_none h]
  | case2 s acc t line h b hb => rw [readLoop_some h, readBases_some h, hb]
  | case3 s acc t line h b e he hb =>
    rw [readLoop_some h, readBases_some h, hb]
    cases e <;> rfl
  | case4 s acc t line h b n hb ih =>
    rw [readLoop_some h, readBases_some h, hb]
    exact ih

theorem finish_readTrailer (f : File) (s : Scanner) (line : Bytes) (isVar : Bool) :
    match Reader.finish ⟨f, s⟩ line isVar with
    | (r, none) => readTrailer f line isVar = .ok r.file ∧ r.scanner = s
    | (r, some e) => readTrailer f line isVar = .error e ∧ r.scanner = s := by
  unfold Reader.finish readTrailer
  simp only
  rcases f.trailer.parse line isVar with ⟨t, e | n⟩ <;> exact ⟨rfl, rfl⟩

/-- C121, the first call: what a new reader returns is what the model of the other properties says. -/
theorem C121_first (p : Plan) (data : Bytes) :
    match (newReader data).read p with
    | (r, none) => readFile p data = .ok r.file
    | (_, some e) => readFile p data = .error e := by
  unfold Reader.read readFile newReader
  simp only
  rw [show { newFile .character with bases := [] } = newFile .character from rfl]
  rcases (newScanner data).scan p with ⟨s, _ | line⟩
  · rfl
  · simp only
    rw [start_readHeader]
    rcases (newFile .character).start line with ⟨f, e | isVar⟩
    · rfl
    · simp only
      rw [readLoop_readBases]
      rcases readLoop p f.format isVar s [] with ⟨bs, s, e | l⟩
      · rfl
      · cases l with
        | some line =>
          have := finish_readTrailer { f with bases := bs } s line isVar
          revert this
          simp only
          rcases Reader.finish ⟨{ f with bases := bs }, s⟩ line isVar with ⟨r, _ | e⟩ <;> exact And.left
        | none =>
          simp only
          rcases s.scan p with ⟨s, _ | line⟩
          · rfl
          · have := finish_readTrailer { f with bases := bs } s line isVar
            revert this
            simp only
            rcases Reader.finish ⟨{ f with bases := bs }, s⟩ line isVar with ⟨r, _ | e⟩ <;> exact And.left

/-! ### A used reader -/

/-- `SetType` as called by `Read`. -/
theorem setType_read {f : File} (hu : Spec.Uniform f) (ht : Spec.TypedFile f) (hb : f.bases = []) (packed : Bool) :
    ∃ e hfs tfs, (f.setType (if packed then Enc.packed.name else messageMetroFormat)).1 = ⟨e, .header e hfs, [], .trailer e tfs⟩ ∧
      f.header = .header f.format hfs ∧ hfs.Typed headerRecordStruct ∧ tfs.Typed trailerRecordStruct ∧ e = if packed then .packed else f.format := by
  obtain ⟨fmt, hd, bs, tr⟩ := f
  obtain ⟨⟨hfs, h1⟩, -, ⟨tfs, h2⟩⟩ := hu
  simp only at h1 h2 hb
  subst h1 h2 hb
  refine ⟨_, hfs, tfs, ?_, rfl, ht.header, ht.trailer, rfl⟩
  cases packed with
  | false =>
    unfold File.setType
    simp only [Bool.false_eq_true, if_false]
    rw [if_pos (by decide +kernel)]
  | true =>
    unfold File.setType
    rw [if_pos rfl, if_neg (by decide +kernel)]
    simp only
    rw [if_neg (show ¬ Enc.packed.name = Enc.character.name by decide +kernel)]
    cases fmt <;> rfl

theorem start_forget {f f' : File} (hu : Spec.Uniform f) (ht : Spec.TypedFile f) (hb : f.bases = []) (hu' : Spec.Uniform f') (ht' : Spec.TypedFile f')
    (hb' : f'.bases = []) (hf : f.format = f'.format) (line : Bytes)
    (hw : f.format = .character → Spec.bdw (Spec.valuesOf f.header) = Spec.bdw (Spec.valuesOf f'.header)) :
    (f.start line).2 = (f'.start line).2 ∧ ∀ v, (f.start line).2 = .ok v → ∃ e h t t', (f.start line).1 = ⟨e, h, [], .trailer e t⟩ ∧
      (f'.start line).1 = ⟨e, h, [], .trailer e t'⟩ ∧ t.Typed trailerRecordStruct ∧ t'.Typed trailerRecordStruct := by
  unfold File.start
  split
  · exact ⟨rfl, by simp⟩
  · rcases isPacked line with e | packed
    · exact ⟨rfl, by simp⟩
    · obtain ⟨e, hfs, tfs, h1, h2, h3, h4, h5⟩ := setType_read hu ht hb packed
      obtain ⟨e', hfs', tfs', h1', h2', h3', h4', h5'⟩ := setType_read hu' ht' hb' packed
      have he : e' = e := by rw [h5, h5', hf]
      subst he
      simp only
      rw [h1, h1']
      simp only
      have hh := C62_record_partial (.header e' hfs) (.header e' hfs') rfl h3 h3' line (isVariableLength line)
        (by
          rintro ⟨he, -⟩
          cases packed with
          | true => rw [he] at h5; cases h5
          | false =>
            have := hw (h5.symm.trans he)
            rw [h2, h2'] at this
            exact this) ⟨rfl, rfl, rfl, rfl, rfl, rfl⟩
      generalize (Record.header e' hfs).parse line (isVariableLength line) = x at hh ⊢
      generalize (Record.header e' hfs').parse line (isVariableLength line) = y at hh ⊢
      obtain ⟨x1, x2⟩ := x
      obtain ⟨y1, y2⟩ := y
      obtain ⟨e1, e2⟩ := hh
      simp only at e1 e2
      subst e1
      cases x2 with
      | error e => exact ⟨rfl, by simp⟩
      | ok n =>
        cases e2 n rfl
        exact ⟨rfl, fun v _ => ⟨e', x1, tfs, tfs', rfl, rfl, h4, h4'⟩⟩

theorem finish_forget {e : Enc} {h : Record} {bs : List Record} {t t' : Fields} (ht : t.Typed trailerRecordStruct) (ht' : t'.Typed trailerRecordStruct)
    (s : Scanner) (line : Bytes) (isVar : Bool) :
    (Reader.finish ⟨⟨e, h, bs, .trailer e t⟩, s⟩ line isVar).2 = (Reader.finish ⟨⟨e, h, bs, .trailer e t'⟩, s⟩ line isVar).2 ∧
    (Reader.finish ⟨⟨e, h, bs, .trailer e t⟩, s⟩ line isVar).1.scanner = (Reader.finish ⟨⟨e, h, bs, .trailer e t'⟩, s⟩ line isVar).1.scanner ∧
    ((Reader.finish ⟨⟨e, h, bs, .trailer e t⟩, s⟩ line isVar).2 = none →
      (Reader.finish ⟨⟨e, h, bs, .trailer e t⟩, s⟩ line isVar).1.file = (Reader.finish ⟨⟨e, h, bs, .trailer e t'⟩, s⟩ line isVar).1.file) := by
  have hh := C62_record_partial (.trailer e t) (.trailer e t') rfl ht ht' line isVar (fun hk => hk.elim) ⟨rfl, rfl, rfl, rfl, rfl, rfl⟩
  unfold Reader.finish
  simp only
  generalize (Record.trailer e t).parse line isVar = x at hh ⊢
  generalize (Record.trailer e t').parse line isVar = y at hh ⊢
  obtain ⟨x1, x2⟩ := x
  obtain ⟨y1, y2⟩ := y
  obtain ⟨e1, e2⟩ := hh
  simp only at e1 e2
  subst e1
  cases x2 with
  | error e => exact ⟨rfl, rfl, by simp⟩
  | ok n =>
    cases e2 n rfl
    exact ⟨rfl, rfl, fun _ => rfl⟩

/-- C121, used readers: a reader whose file is of the character format and has no block descriptor reads like a new one, whatever else is in its file
and whatever the stream brings. Missing for the full property: other files, see `C121_stream_iff`. -/
theorem C121_used_partial (p : Plan) (r : Reader) (hu : Spec.Uniform r.file) (ht : Spec.TypedFile r.file) (hg : Spec.grade r.file = 0) :
    (r.read p).2 = (Reader.read p ⟨newFile .character, r.scanner⟩).2 ∧
    (r.read p).1.scanner = (Reader.read p ⟨newFile .character, r.scanner⟩).1.scanner ∧
    ((r.read p).2 = none → (r.read p).1.file = (Reader.read p ⟨newFile .character, r.scanner⟩).1.file) := by
  obtain ⟨f, s⟩ := r
  have hf : f.format = .character ∧ Spec.bdw (Spec.valuesOf f.header) = 0 := by
    unfold Spec.grade at hg
    simp only at hg
    split at hg
    · next h =>
      split at hg
      · next h' => exact ⟨h, h'⟩
      · cases hg
    · cases hg
  simp only at hu ht
  have hn := C32_reachable (.new .character)
  have key := fun line => start_forget (f := { f with bases := [] }) (f' := newFile .character) ⟨hu.header, by simp, hu.trailer⟩
    ⟨ht.header, by simp, ht.trailer⟩ rfl hn.1 hn.2 rfl hf.1 line (fun _ => hf.2.trans (newHeader_bdw .character).symm)
  unfold Reader.read
  simp only
  rw [show { newFile .character with bases := [] } = newFile .character from rfl]
  rcases s.scan p with ⟨s, _ | line⟩
  · exact ⟨rfl, rfl, by simp⟩
  · simp only
    have hh := key line
    generalize File.start { f with bases := [] } line = x at hh ⊢
    generalize (newFile .character).start line = y at hh ⊢
    obtain ⟨x1, x2⟩ := x
    obtain ⟨y1, y2⟩ := y
    obtain ⟨e1, e2⟩ := hh
    simp only at e1 e2
    subst e1
    cases x2 with
    | error e => exact ⟨rfl, rfl, by simp⟩
    | ok isVar =>
      obtain ⟨e, h, t, t', rfl, rfl, h1, h2⟩ := e2 isVar rfl
      simp only
      rcases readLoop p e isVar s [] with ⟨bs, s, e' | l⟩
      · exact ⟨rfl, rfl, by simp⟩
      · cases l with
        | some line => exact finish_forget h1 h2 s line isVar
        | none =>
          simp only
          rcases s.scan p with ⟨s, _ | line⟩
          · exact ⟨rfl, rfl, by simp⟩
          · exact finish_forget h1 h2 s line isVar

/-! ### The next file -/

theorem scan_text {p : Plan} (hp : p.Progress) {s : Scanner} (hs : s.Ok) {t rest : Bytes} (ht : RecordText t) (nl : Bool)
    (hi : s.input = newLine nl ++ t ++ rest) : ∃ s', s.scan p = (s', some t) ∧ s'.Ok ∧ s'.input = rest := by
  have := Scanner.scan_some hp hs hi (ht.piece nl) (ht.fits nl)
  rwa [ht.withoutBreaks] at this

theorem readLoop_text {p : Plan} (hp : p.Progress) {enc : Enc} {isVar : Bool} {tfs : Fields} (htr : Spec.GoodTrailer enc tfs) (nl : Bool) (rest : Bytes)
    (hrt : RecordText (Record.trailer enc tfs).string) :
    ∀ (bs acc : List Record) (s : Scanner), (∀ r ∈ bs, (∃ fs g, r = .base enc fs g ∧ Spec.GoodData enc isVar fs g) ∧ RecordText r.string) → s.Ok →
    s.input = (bs.map fun r => newLine nl ++ r.string).flatten ++ (newLine nl ++ (Record.trailer enc tfs).string ++ rest) →
    ∃ s', readLoop p enc isVar s acc = (acc ++ bs, s', .ok (some (Record.trailer enc tfs).string)) ∧ s'.Ok ∧ s'.input = rest := by
  intro bs
  induction bs with
  | nil =>
    intro acc s _ hs hi
    obtain ⟨s', h1, h2, h3⟩ := scan_text hp hs hrt nl hi
    refine ⟨s', ?_, h2, h3⟩
    obtain ⟨b, err, he, hne⟩ := base_of_trailer htr isVar []
    rw [List.append_nil] at he
    rw [readLoop_some h1, he, List.append_nil]
    cases err <;> first | rfl | exact absurd rfl hne
  | cons b bs ih =>
    intro acc s hbs hs hi
    obtain ⟨⟨fs, g, rfl, hg⟩, hrb⟩ := hbs b List.mem_cons_self
    rw [List.map_cons, List.flatten_cons, List.append_assoc] at hi
    obtain ⟨s1, h1, h2, h3⟩ := scan_text hp hs hrb nl hi
    have hread := base_reread hg.base (rest := []) (fun _ => by
      intro k hk
      have := hk.length_le
      revert this
      cases k <;> decide +kernel)
    rw [List.append_nil] at hread
    obtain ⟨s', h4, h5, h6⟩ := ih (acc ++ [.base enc fs g]) s1 (fun r hr => hbs r (List.mem_cons_of_mem _ hr)) h2 h3
    refine ⟨s', ?_, h5, h6⟩
    rw [readLoop_some h1, hread]
    simp only
    rw [h4]
    simp

theorem grade_good {enc : Enc} {isVar : Bool} {f : File} (h : Spec.GoodFile enc isVar f) :
    Spec.grade f = if enc = .packed then 2 else if isVar then 1 else 0 := by
  obtain ⟨rfl, ⟨fs, h1, hh⟩, -, -⟩ := h
  unfold Spec.grade
  rw [h1]
  have hb := hh.bdw
  cases f.format with
  | packed => rfl
  | character =>
    cases isVar with
    | true =>
      rw [if_pos rfl] at hb
      exact if_neg (by have := hb.1; intro h0; rw [show Spec.bdw (Spec.valuesOf (.header .character fs)) = Spec.bdw fs from rfl] at h0; omega)
    | false => exact if_pos (show Spec.bdw fs = 0 by simpa using hb)

theorem good_sound {enc : Enc} {isVar : Bool} {f : File} (h : Spec.GoodFile enc isVar f) : Spec.Uniform f ∧ Spec.TypedFile f := by
  obtain ⟨rfl, ⟨fs, h1, hh⟩, hb, ⟨tfs, h2, htr⟩⟩ := h
  refine ⟨⟨⟨fs, h1⟩, fun r hr => ?_, ⟨tfs, h2⟩⟩, ⟨by rw [h1]; exact hh.typed, fun r hr => ?_, by rw [h2]; exact htr.typed⟩⟩
  · obtain ⟨fs, g, rfl, -⟩ := hb r hr
    exact ⟨fs, g, rfl⟩
  · obtain ⟨fs, g, rfl, hg⟩ := hb r hr
    exact hg.base.typed

/-- What a file of some grade may read next. -/
def Takes (g : File) (enc : Enc) (isVar : Bool) : Prop :=
  (g.format = .packed → enc = .packed) ∧ (enc = .character → isVar = false → Spec.bdw (Spec.valuesOf g.header) = 0)

theorem takes_iff {g f : File} {enc : Enc} {isVar : Bool} (h : Spec.GoodFile enc isVar f) : Takes g enc isVar ↔ Spec.grade g ≤ Spec.grade f := by
  rw [grade_good h]
  have hp : enc = .packed → isVar = true := by
    obtain ⟨-, ⟨fs, -, hh⟩, -, -⟩ := h
    exact hh.packed
  unfold Takes Spec.grade
  cases hg : g.format <;> cases enc <;> cases isVar <;> simp at hp ⊢ <;> split <;> simp_all

theorem start_good {f : File} (hu : Spec.Uniform f) (ht : Spec.TypedFile f) (hb : f.bases = []) {enc : Enc} {isVar : Bool} {fs : Fields}
    (h : Spec.GoodHeader enc isVar fs) (hk : Takes f enc isVar) :
    ∃ tfs, tfs.Typed trailerRecordStruct ∧ f.start (Record.header enc fs).string = (⟨enc, .header enc fs, [], .trailer enc tfs⟩, .ok isVar) := by
  obtain ⟨h1, h2, h3⟩ := header_checks h
  obtain ⟨e, hfs, tfs, g1, g2, g3, g4, g5⟩ := setType_read hu ht hb (enc == .packed)
  have he : e = enc := by
    rw [g5]
    cases enc with
    | packed => rfl
    | character =>
      cases hf : f.format with
      | character => rfl
      | packed => exact absurd (hk.1 hf) (by simp)
  subst he
  refine ⟨tfs, g4, ?_⟩
  unfold File.start
  rw [h1, h2, h3]
  simp only [Bool.not_true, Bool.false_eq_true, if_false]
  rw [g1]
  simp only
  have h4 := header_reread h []
  rw [List.append_nil] at h4
  have hh := C62_record_partial (.header e hfs) (newHeader e) rfl g3 (newHeader_typed e) (Record.header e fs).string isVar
    (by
      rintro ⟨he, hv⟩
      have := hk.2 he hv
      rw [g2] at this
      exact this.trans (newHeader_bdw e).symm) ⟨rfl, rfl, rfl, rfl, rfl, rfl⟩
  rw [h4] at hh
  obtain ⟨e1, e2⟩ := hh
  generalize (Record.header e hfs).parse (Record.header e fs).string isVar = x at e1 e2 ⊢
  obtain ⟨x1, x2⟩ := x
  simp only at e1 e2
  subst e1
  rw [e2 _ rfl]

theorem file_input {f : File} (nl b : Bool) (rest : Bytes) :
    newLine b ++ f.string nl ++ rest = newLine b ++ f.header.string ++ ((f.bases.map fun r => newLine nl ++ r.string).flatten ++
      (newLine nl ++ f.trailer.string ++ rest)) := by
  rw [File.string_eq, show Spec.recordTexts f = f.header.string :: (f.bases.map Record.string ++ [f.trailer.string]) from rfl, joinRecords_cons]
  simp [List.map_map, Function.comp_def]

theorem read_good {p : Plan} (hp : p.Progress) {r : Reader} (hu : Spec.Uniform r.file) (ht : Spec.TypedFile r.file) (hs : r.scanner.Ok) {f : File}
    (h : Spec.GoodInStream f) (hg : Spec.grade r.file ≤ Spec.grade f) (nl b : Bool) (rest : Bytes) (hi : r.scanner.input = newLine b ++ f.string nl ++ rest) :
    ∃ s, r.read p = (⟨f, s⟩, none) ∧ s.Ok ∧ s.input = rest := by
  obtain ⟨⟨isVar, hgood⟩, hnb⟩ := h
  have htexts := goodFile_texts hgood hnb
  have htakes := (takes_iff hgood).2 hg
  obtain ⟨g, s⟩ := r
  obtain ⟨format, header, bases, trailer⟩ := f
  obtain ⟨-, ⟨hfs, h1, hh⟩, hbs, ⟨tfs, h2, htr⟩⟩ := hgood
  simp only at h1 h2 hbs hi hs hu ht htakes hh
  subst h1 h2
  rw [file_input] at hi
  simp only at hi
  obtain ⟨s1, e1, e2, e3⟩ := scan_text hp hs (htexts (Record.header format hfs).string (by simp [Spec.recordTexts])) b hi
  obtain ⟨tfs', q1, q2⟩ := start_good (f := { g with bases := [] }) ⟨hu.header, by simp, hu.trailer⟩ ⟨ht.header, by simp, ht.trailer⟩ rfl hh htakes
  obtain ⟨s2, e4, e5, e6⟩ := readLoop_text hp (isVar := isVar) htr nl rest (htexts _ (by simp [Spec.recordTexts])) bases [] s1
    (fun r hr => ⟨hbs r hr, htexts _ (by simp only [Spec.recordTexts, List.mem_append, List.mem_map]; exact .inl (.inr ⟨r, hr, rfl⟩))⟩) e2 e3
  refine ⟨s2, ?_, e5, e6⟩
  unfold Reader.read
  simp only
  rw [e1]
  simp only
  rw [q2]
  simp only
  rw [e4]
  have hh := C62_record_partial (.trailer format tfs') (newTrailer format) rfl q1 (newTrailer_typed format) (Record.trailer format tfs).string isVar
    (fun hk => hk.elim) ⟨rfl, rfl, rfl, rfl, rfl, rfl⟩
  have h4 := C18_trailer format tfs htr.typed htr.fits isVar []
  rw [List.append_nil] at h4
  rw [h4] at hh
  unfold Reader.finish
  simp only
  obtain ⟨z1, z2⟩ := hh
  generalize (Record.trailer format tfs').parse (Record.trailer format tfs).string isVar = x at z1 z2 ⊢
  obtain ⟨x1, x2⟩ := x
  simp only at z1 z2
  subst z1
  rw [z2 _ rfl]
  rfl

/-! What a call leaves of the format and the header. -/

theorem read_start {p : Plan} {r r' : Reader} {s : Scanner} {line : Bytes} (hs : r.scanner.scan p = (s, some line)) (h : r.read p = (r', none)) :
    ∃ g isVar, File.start { r.file with bases := [] } line = (g, .ok isVar) ∧ r'.file.format = g.format ∧ r'.file.header = g.header := by
  have hfin : ∀ (q q' : Reader) line isVar, q.finish line isVar = (q', none) → q'.file.format = q.file.format ∧ q'.file.header = q.file.header := by
    intro q q' line isVar hq
    unfold Reader.finish at hq
    split at hq <;> cases hq
    exact ⟨rfl, rfl⟩
  unfold Reader.read at h
  simp only at h
  rw [hs] at h
  simp only at h
  split at h
  · cases h
  · next g isVar hg =>
    refine ⟨g, isVar, hg, ?_⟩
    split at h
    · cases h
    · exact hfin _ _ _ _ h
    · split at h
      · cases h
      · exact hfin _ _ _ _ h

theorem read_worse {p : Plan} (hp : p.Progress) {r r' : Reader} (hu : Spec.Uniform r.file) (ht : Spec.TypedFile r.file) (hs : r.scanner.Ok) {f : File}
    (h : Spec.GoodInStream f) (nl b : Bool) (rest : Bytes) (hi : r.scanner.input = newLine b ++ f.string nl ++ rest)
    (hr : r.read p = (r', none)) (hf : r'.file = f) : Spec.grade r.file ≤ Spec.grade f := by
  obtain ⟨⟨isVar, hgood⟩, hnb⟩ := h
  have htexts := goodFile_texts hgood hnb
  refine (takes_iff hgood).1 ?_
  rw [file_input] at hi
  obtain ⟨s1, e1, -, -⟩ := scan_text hp hs (htexts f.header.string (by simp [Spec.recordTexts])) b hi
  obtain ⟨g, isVar', q1, q2, q3⟩ := read_start e1 hr
  rw [hf] at q2 q3
  obtain ⟨-, ⟨hfs, h1, hh⟩, -, -⟩ := hgood
  obtain ⟨c1, c2, c3⟩ := header_checks hh
  rw [h1] at q1 q3
  have hb := hh.bdw
  obtain ⟨e, ofs, tfs, g1, g2, g3, g4, g5⟩ := setType_read (f := { r.file with bases := [] }) ⟨hu.header, by simp, hu.trailer⟩
    ⟨ht.header, by simp, ht.trailer⟩ rfl (f.format == .packed)
  unfold File.start at q1
  rw [c1, c2, c3] at q1
  simp only [Bool.not_true, Bool.false_eq_true, if_false] at q1
  rw [g1] at q1
  simp only at q1 g2 g5
  split at q1
  · cases q1
  · next hd n hpar =>
    cases q1
    simp only at q2 q3
    refine ⟨fun hpk => ?_, fun he hv => ?_⟩
    · rw [q2, g5, hpk]
      split <;> rfl
    · subst hv
      rw [q2] at he
      subst he
      have hb0 : Spec.bdw hfs = 0 := by simpa using hb
      have hk := (C62_header_kept ofs g3 (Record.header .character hfs).string).2
      have h4 := header_reread (enc := .character) (isVar := false) (fs := hfs) (by rw [← q2]; exact hh) []
      rw [List.append_nil] at h4
      obtain ⟨others, k1, k2⟩ := hk _ (by rw [h4])
      rw [q2] at hpar
      rw [k2] at hpar
      rw [← q3, q2] at hpar
      cases hpar
      rw [g2]
      exact hb0

/-! ### Streams -/

theorem streamText_eq (nl : Bool) (fs : List File) : Spec.streamText nl fs = Spec.joinRecords nl (fs.map (File.string · nl)) := by
  unfold Spec.streamText
  congr 2
  funext f
  rw [File.string_eq]

theorem results_ok {p : Plan} {n : Nat} {r r' : Reader} (h : r.read p = (r', none)) : r.results p (n + 1) = .ok r'.file :: r'.results p n := by
  rw [Reader.results, h]

theorem stream_iff {p : Plan} (hp : p.Progress) (nl : Bool) : ∀ (fs : List File) (r : Reader) (b : Bool) (rest : Bytes), Spec.Uniform r.file →
    Spec.TypedFile r.file → r.scanner.Ok → (∀ f ∈ fs, Spec.GoodInStream f) →
    r.scanner.input = (match fs with
      | [] => []
      | f :: fs => newLine b ++ f.string nl ++ (fs.map fun f => newLine nl ++ f.string nl).flatten) ++ rest →
    (r.results p fs.length = fs.map Except.ok ↔ Spec.Ascending (Spec.grade r.file) fs) ∧
    (Spec.Ascending (Spec.grade r.file) fs → (r.after p fs.length).scanner.Ok ∧ (r.after p fs.length).scanner.input = rest ∧
      ∀ i f, fs[i]? = some f → (r.after p (i + 1)).file = f) := by
  intro fs
  induction fs with
  | nil =>
    intro r b rest hu ht hs _ hi
    exact ⟨⟨fun _ => trivial, fun _ => rfl⟩, fun _ => ⟨hs, hi, by simp⟩⟩
  | cons f fs ih =>
    intro r b rest hu ht hs hfs hi
    simp only [List.append_assoc] at hi
    have hf := hfs f List.mem_cons_self
    have hi' : r.scanner.input = newLine b ++ f.string nl ++ ((fs.map fun f => newLine nl ++ f.string nl).flatten ++ rest) := by
      rw [hi]; simp only [List.append_assoc]
    have good := fun hg => read_good hp hu ht hs hf hg nl b _ hi'
    have next : ∀ s : Scanner, s.Ok → s.input = (fs.map fun f => newLine nl ++ f.string nl).flatten ++ rest → _ := fun s h1 h2 =>
      ih ⟨f, s⟩ nl rest (good_sound hf.1.choose_spec).1 (good_sound hf.1.choose_spec).2 h1 (fun g hg => hfs g (List.mem_cons_of_mem _ hg)) (by
        show s.input = _
        rw [h2]
        cases fs with
        | nil => rfl
        | cons g gs => simp only [List.map_cons, List.flatten_cons])
    constructor
    · constructor
      · intro h
        rw [List.length_cons, List.map_cons] at h
        have hr : ∃ r', r.read p = (r', none) ∧ r'.file = f := by
          rw [Reader.results] at h
          split at h
          · next r' hr => exact ⟨r', hr, by have := (List.cons.inj h).1; injection this⟩
          · exact absurd (List.cons.inj h).1 (by simp)
        obtain ⟨r', hr, hrf⟩ := hr
        have hg := read_worse hp hu ht hs hf nl b _ hi' hr hrf
        obtain ⟨s, e1, e2, e3⟩ := good hg
        rw [results_ok e1] at h
        exact ⟨hg, (next s e2 e3).1.1 (List.cons.inj h).2⟩
      · rintro ⟨hg, hrest⟩
        obtain ⟨s, e1, e2, e3⟩ := good hg
        rw [List.length_cons, List.map_cons, results_ok e1, (next s e2 e3).1.2 hrest]
    · rintro ⟨hg, hrest⟩
      obtain ⟨s, e1, e2, e3⟩ := good hg
      obtain ⟨n1, n2, n3⟩ := (next s e2 e3).2 hrest
      have ha : ∀ n, r.after p (n + 1) = Reader.after p n ⟨f, s⟩ := fun n => by rw [Reader.after, e1]
      refine ⟨by rw [List.length_cons, ha]; exact n1, by rw [List.length_cons, ha]; exact n2, fun i g hg => ?_⟩
      rw [ha]
      cases i with
      | zero => cases hg; rfl
      | succ i => exact n3 i g (by simpa using hg)

theorem stream_new {p : Plan} (hp : p.Progress) (nl : Bool) (fs : List File) (hfs : ∀ f ∈ fs, Spec.GoodInStream f) :
    ((newReader (Spec.streamText nl fs)).results p fs.length = fs.map Except.ok ↔ Spec.Ascending 0 fs) ∧
    (Spec.Ascending 0 fs → ((newReader (Spec.streamText nl fs)).after p fs.length).scanner.Ok ∧
      ((newReader (Spec.streamText nl fs)).after p fs.length).scanner.input = [] ∧
      ∀ i f, fs[i]? = some f → ((newReader (Spec.streamText nl fs)).after p (i + 1)).file = f) := by
  have hn := C32_reachable (.new .character)
  have := stream_iff hp nl fs (newReader (Spec.streamText nl fs)) false [] hn.1 hn.2 (newScanner_ok _) hfs (by
    show (newScanner _).input = _
    rw [newScanner_input, streamText_eq, List.append_nil]
    cases fs with
    | nil => rfl
    | cons f fs => rw [List.map_cons, joinRecords_cons, List.map_map]; rfl)
  rwa [show Spec.grade (newReader (Spec.streamText nl fs)).file = 0 from by
    show (if Spec.bdw (Spec.valuesOf (newHeader .character)) = 0 then 0 else 1) = 0
    exact if_pos (newHeader_bdw .character)] at this

/-- C121, several files in one stream: exactly which well-formed files are returned one after the other. They are those in which no file with fixed-length
records comes after one with block descriptors, and no character file after a packed one. -/
theorem C121_stream_iff (p : Plan) (hp : p.Progress) (nl : Bool) (fs : List File) (hfs : ∀ f ∈ fs, Spec.GoodInStream f) :
    (newReader (Spec.streamText nl fs)).results p fs.length = fs.map .ok ↔ Spec.Ascending 0 fs :=
  (stream_new hp nl fs hfs).1

/-- C121, files of one sort. Missing for the full property: files of different sorts, see `C121_stream_iff`. -/
theorem C121_stream_partial (p : Plan) (hp : p.Progress) (nl : Bool) (fs : List File) (hfs : ∀ f ∈ fs, Spec.GoodInStream f)
    (hg : ∀ f ∈ fs, ∀ g ∈ fs, Spec.grade f = Spec.grade g) : (newReader (Spec.streamText nl fs)).results p fs.length = fs.map .ok := by
  rw [C121_stream_iff p hp nl fs hfs]
  have : ∀ (fs : List File) n, (∀ f ∈ fs, ∀ g ∈ fs, Spec.grade f = Spec.grade g) → (∀ f ∈ fs, n ≤ Spec.grade f) → Spec.Ascending n fs := by
    intro fs
    induction fs with
    | nil => exact fun _ _ _ => trivial
    | cons f fs ih =>
      intro n h1 h2
      exact ⟨h2 f List.mem_cons_self, ih _ (fun a ha b hb => h1 a (List.mem_cons_of_mem _ ha) b (List.mem_cons_of_mem _ hb))
        fun a ha => Nat.le_of_eq (h1 f List.mem_cons_self a (List.mem_cons_of_mem _ ha))⟩
  exact this fs 0 hg fun _ _ => Nat.zero_le _

/-- C121, one object: the file that the first call returned is, after the `i + 1`-th call, the `i`-th file of the stream. -/
theorem C121_shared (p : Plan) (hp : p.Progress) (nl : Bool) (fs : List File) (hfs : ∀ f ∈ fs, Spec.GoodInStream f) (ha : Spec.Ascending 0 fs) (i : Nat)
    (f : File) (hi : fs[i]? = some f) : ((newReader (Spec.streamText nl fs)).after p (i + 1)).file = f :=
  ((stream_new hp nl fs hfs).2 ha).2.2 i f hi

/-- C121, the end: the call after the last file fails, and takes all data records from the last file. -/
theorem C121_end (p : Plan) (hp : p.Progress) (nl : Bool) (fs : List File) (f : File) (hfs : ∀ g ∈ fs ++ [f], Spec.GoodInStream g)
    (ha : Spec.Ascending 0 (fs ++ [f])) :
    (((newReader (Spec.streamText nl (fs ++ [f]))).after p (fs.length + 1)).read p).2 = some .invalidSegment ∧
    (((newReader (Spec.streamText nl (fs ++ [f]))).after p (fs.length + 1)).read p).1.file = { f with bases := [] } := by
  obtain ⟨h1, h2, h3⟩ := (stream_new hp nl _ hfs).2 ha
  have h4 := h3 fs.length f (by simp)
  rw [show (fs ++ [f]).length = fs.length + 1 by simp] at h1 h2
  generalize (newReader (Spec.streamText nl (fs ++ [f]))).after p (fs.length + 1) = r at h1 h2 h4
  obtain ⟨t, e1, -, -⟩ := Scanner.scan_none hp h1 (stuck_of_nil (by
    intro a b hab hpc
    rw [h2] at hab
    have := piece_pos hpc
    rw [(List.append_eq_nil_iff.1 hab.symm).1] at this
    exact absurd this (by decide)))
  unfold Reader.read
  simp only
  rw [e1, h4]
  exact ⟨rfl, rfl⟩

/-- C121, in full: the calls return the files of the stream, and a file that was returned is not changed by later calls. Refuted by `C121_violated`. -/
def C121_statement : Prop := ∀ (p : Plan) (nl : Bool) (fs : List File), p.Progress → (∀ f ∈ fs, Spec.GoodInStream f) →
  (newReader (Spec.streamText nl fs)).results p fs.length = fs.map .ok ∧
  ∀ i f n, fs[i]? = some f → i < n → ((newReader (Spec.streamText nl fs)).after p n).file = f

theorem fixedFile_inStream : Spec.GoodInStream fixedFile := ⟨⟨false, fixedFile_good⟩, goodFile_noBreaks fixedFile_good⟩

theorem variableFile_inStream : Spec.GoodInStream variableFile := ⟨⟨true, variableFile_good⟩, goodFile_noBreaks variableFile_good⟩

theorem packedFile_inStream : Spec.GoodInStream packedFile := ⟨⟨true, packedFile_good⟩, packedFile_noBreaks⟩

theorem grades : Spec.grade fixedFile = 0 ∧ Spec.grade variableFile = 1 ∧ Spec.grade packedFile = 2 := by decide +kernel

/-- C121 fails for a character file after a packed one, and for one with fixed-length records after one with block descriptors. -/
theorem C121_order_violated : ∀ fs ∈ [[packedFile, fixedFile], [packedFile, variableFile], [variableFile, fixedFile]],
    (∀ f ∈ fs, Spec.GoodInStream f) ∧ ∀ p nl, p.Progress → (newReader (Spec.streamText nl fs)).results p 2 ≠ fs.map .ok := by
  obtain ⟨g0, g1, g2⟩ := grades
  have key : ∀ f g, Spec.GoodInStream f → Spec.GoodInStream g → Spec.grade g < Spec.grade f → (∀ x ∈ [f, g], Spec.GoodInStream x) ∧
      ∀ p nl, p.Progress → (newReader (Spec.streamText nl [f, g])).results p 2 ≠ [f, g].map .ok := by
    intro f g hf hg hlt
    have hall : ∀ x ∈ [f, g], Spec.GoodInStream x := by
      intro x hx
      simp only [List.mem_cons, List.not_mem_nil, or_false] at hx
      rcases hx with rfl | rfl
      · exact hf
      · exact hg
    exact ⟨hall, fun p nl hp h => absurd ((C121_stream_iff p hp nl _ hall).1 h).2.1 (by omega)⟩
  intro fs hfs
  simp only [List.mem_cons, List.not_mem_nil, or_false] at hfs
  rcases hfs with rfl | rfl | rfl
  · exact key _ _ packedFile_inStream fixedFile_inStream (by omega)
  · exact key _ _ packedFile_inStream variableFile_inStream (by omega)
  · exact key _ _ variableFile_inStream fixedFile_inStream (by omega)

/-- C121 fails for a single file: asking for a second one takes its data records away. -/
theorem C121_lost_violated : ∀ p nl, p.Progress → ((newReader (Spec.streamText nl [fixedFile])).after p 1).file = fixedFile ∧
    ((newReader (Spec.streamText nl [fixedFile])).after p 2).file.bases = [] ∧ fixedFile.bases ≠ [] := by
  intro p nl hp
  have hall : ∀ x ∈ [] ++ [fixedFile], Spec.GoodInStream x := by simpa using fixedFile_inStream
  have ha : Spec.Ascending 0 ([] ++ [fixedFile]) := ⟨Nat.zero_le _, trivial⟩
  exact ⟨C121_shared p hp nl _ hall ha 0 fixedFile rfl, congrArg File.bases (C121_end p hp nl [] fixedFile hall ha).2, by decide⟩

theorem C121_violated : ¬ C121_statement := by
  intro h
  obtain ⟨-, h2, h3⟩ := C121_lost_violated slow true slow_progress
  have := (h slow true [fixedFile] slow_progress (by simpa using fixedFile_inStream)).2 0 fixedFile 2 rfl (by decide)
  rw [this] at h2
  exact h3 h2

/-- Case of `C121_first`: the first of two files. -/
example : ∃ s, (newReader (Spec.streamText true [fixedFile, packedFile])).read slow = (⟨fixedFile, s⟩, none) := by
  obtain ⟨s, h, -, -⟩ := read_good slow_progress (r := newReader (Spec.streamText true [fixedFile, packedFile])) (C32_reachable (.new .character)).1
    (C32_reachable (.new .character)).2 (newScanner_ok _) fixedFile_inStream (by decide +kernel) true false (newLine true ++ packedFile.string true) (by
      show (newScanner _).input = _
      rw [newScanner_input, streamText_eq, List.map_cons, joinRecords_cons]
      simp [newLine])
  exact ⟨s, h⟩

/-- Case of `C121_used_partial`: a reader that has read a file with fixed-length records. -/
example : Spec.Uniform fixedFile ∧ Spec.TypedFile fixedFile ∧ Spec.grade fixedFile = 0 :=
  ⟨(good_sound fixedFile_good).1, (good_sound fixedFile_good).2, grades.1⟩

/-- Case of `C121_stream_iff`, `C121_shared` and `C121_end`: the three sorts of files in their order. -/
example : slow.Progress ∧ (∀ f ∈ [fixedFile, variableFile] ++ [packedFile], Spec.GoodInStream f) ∧ Spec.Ascending 0 ([fixedFile, variableFile] ++ [packedFile]) := by
  refine ⟨slow_progress, ?_, ?_⟩
  rotate_left
  · obtain ⟨g0, g1, g2⟩ := grades
    exact ⟨Nat.zero_le _, by omega, by omega, trivial⟩
  intro f hf
  simp only [List.cons_append, List.nil_append, List.mem_cons, List.not_mem_nil, or_false] at hf
  rcases hf with rfl | rfl | rfl
  · exact fixedFile_inStream
  · exact variableFile_inStream
  · exact packedFile_inStream

/-- Case of `C121_stream_partial`. -/
example : ∀ f ∈ [variableFile, variableFile], Spec.GoodInStream f ∧ ∀ g ∈ [variableFile, variableFile], Spec.grade f = Spec.grade g := by
  simpa using variableFile_inStream

end Metro2
