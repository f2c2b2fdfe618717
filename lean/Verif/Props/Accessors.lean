import Verif.Spec.Walk
import Verif.Props.Own

/-!
Properties C97 (the sizes that segments and records report) and C98 (names and types).
-/

namespace Metro2

open Samples

/-! ### Cutting a text -/

theorem cut_iff (ns : List Int) (s : Bytes) (ts : List Bytes) :
    Spec.cut ns s = some ts ↔ ns = ts.map (fun t => (t.length : Int)) ∧ s = ts.flatten := by
  induction ns generalizing s ts with
  | nil =>
    cases s with
    | nil =>
      rw [Spec.cut]
      cases ts <;> simp
    | cons c s =>
      rw [Spec.cut]
      cases ts <;> simp
  | cons n ns ih =>
    rw [Spec.cut]
    split
    · next h =>
      cases hc : Spec.cut ns (s.drop n.toNat) with
      | some us =>
        obtain ⟨h1, h2⟩ := (ih _ _).1 hc
        simp only [Option.some.injEq]
        constructor
        · rintro rfl
          refine ⟨?_, ?_⟩
          · rw [List.map_cons, ← h1, List.length_take]
            congr 1
            omega
          · rw [List.flatten_cons, ← h2, List.take_append_drop]
        · rintro ⟨h3, rfl⟩
          cases ts with
          | nil => simp at h3
          | cons t ts =>
            rw [List.map_cons, List.cons.injEq] at h3
            obtain ⟨rfl, h4⟩ := h3
            rw [List.flatten_cons, Int.toNat_natCast, List.drop_left] at hc
            have := (ih _ ts).2 ⟨h4, rfl⟩
            rw [hc, Option.some.injEq] at this
            rw [this, List.flatten_cons, Int.toNat_natCast, List.take_left]
      | none =>
        simp only [reduceCtorEq, false_iff]
        rintro ⟨h3, rfl⟩
        cases ts with
        | nil => simp at h3
        | cons t ts =>
          rw [List.map_cons, List.cons.injEq] at h3
          obtain ⟨rfl, h4⟩ := h3
          rw [List.flatten_cons, Int.toNat_natCast, List.drop_left] at hc
          have := (ih _ ts).2 ⟨h4, rfl⟩
          rw [hc] at this
          cases this
    · next h =>
      simp only [reduceCtorEq, false_iff]
      rintro ⟨h3, rfl⟩
      cases ts with
      | nil => simp at h3
      | cons t ts =>
        rw [List.map_cons, List.cons.injEq] at h3
        refine h ⟨by omega, ?_⟩
        rw [List.flatten_cons, List.length_append]
        omega

theorem joinRecords_flatten (ts : List Bytes) : Spec.joinRecords false ts = ts.flatten := by
  cases ts with
  | nil => rfl
  | cons t ts =>
    rw [joinRecords_cons, List.flatten_cons]
    congr 2
    induction ts with
    | nil => rfl
    | cons u ts ih => rw [List.map_cons, ih]; rfl

theorem lists_iff (f : File) (rs : List Record) : Spec.Lists f rs ↔ rs = Spec.allRecords f := by
  have e1 : f.getRecord "header".toUTF8.data.toList = .ok f.header := by
    unfold File.getRecord
    exact if_pos (by decide +kernel)
  have e2 : f.getRecord "trailer".toUTF8.data.toList = .ok f.trailer := by
    unfold File.getRecord
    rw [if_neg (by decide +kernel)]
    exact if_pos (by decide +kernel)
  unfold Spec.Lists
  rw [e1, e2]
  constructor
  · rintro ⟨h, t, h1, h2, rfl⟩
    cases h1
    cases h2
    rfl
  · rintro rfl
    exact ⟨_, _, rfl, rfl, rfl⟩

theorem recordTexts_all (f : File) : Spec.recordTexts f = (Spec.allRecords f).map Record.bytes := by
  unfold Spec.recordTexts Spec.allRecords
  rw [List.map_cons, List.map_append]
  rfl

/-! ### C97 -/

/-- C97. `Parse` of a segment reports the segment's `Length`, which is the number of bytes of the text of every segment whose values
have the sizes of their fields. -/
theorem C97_segment (s s' : Seg) (rec : Bytes) (isVar : Bool) (n : Nat) :
    (s.parse rec isVar = (s', .ok n) → n = s'.length ∧ n = s.length) ∧
    (Spec.SegSized s.kind s → s.bytes.length = s.length) := by
  constructor
  · intro h
    unfold Seg.parse at h
    split at h
    · cases h
    · split at h
      · cases h
      · cases h; exact ⟨rfl, rfl⟩
  · intro h
    rw [Seg.bytes, C12_segment_length _ _ h, segmentLength_eq]
    rfl

/-- C97. What `Parse` of a record reports is what the accessors say afterwards: the block size if there is one, else the length. -/
theorem C97_parse (r r' : Record) (rec : Bytes) (isVar : Bool) (n : Int) (h : r.parse rec isVar = (r', .ok n)) :
    n = Spec.reported r' := by
  unfold Spec.reported
  cases r with
  | header enc fs =>
    simp only [Record.parse, Prod.mk.injEq] at h
    obtain ⟨rfl, h⟩ := h
    unfold parseHeader at h ⊢
    split at h
    · cases h
    · next hl =>
      rw [if_neg hl]
      split at h
      · cases h
      · cases h
        rfl
  | trailer enc fs =>
    simp only [Record.parse, Prod.mk.injEq] at h
    obtain ⟨rfl, h⟩ := h
    unfold parseTrailer at h ⊢
    split at h
    · cases h
    · next hl =>
      rw [if_neg hl]
      split at h
      · cases h
      · cases h
        show _ = ite _ _ _
        split <;> rfl
  | base enc fs g =>
    cases enc with
    | character =>
      rw [Record.parse, Prod.mk.injEq] at h
      obtain ⟨rfl, h⟩ := h
      obtain ⟨⟨fs', g'⟩, hp⟩ : ∃ a, parseBaseCharacter fs g rec isVar = (a, .ok n) := ⟨_, Prod.ext rfl h⟩
      rw [hp]
      simp only [Record.blockSize, Record.length, Record.fields]
      unfold parseBaseCharacter at hp
      split at hp
      · cases hp
      · split at hp
        · cases hp
        · dsimp only at hp
          split at hp
          · next hb =>
            repeat' split at hp
            all_goals first | (cases hp; done) | (cases hp; exact (if_pos hb).symm)
          · next hb =>
            repeat' split at hp
            all_goals first | (cases hp; done) | (cases hp; exact (if_neg hb).symm)
    | packed =>
      rw [Record.parse, Prod.mk.injEq] at h
      obtain ⟨rfl, h⟩ := h
      obtain ⟨⟨fs', g'⟩, hp⟩ : ∃ a, parseBasePacked fs g rec isVar = (a, .ok n) := ⟨_, Prod.ext rfl h⟩
      rw [hp]
      simp only [Record.blockSize, Record.length, Record.fields]
      unfold parseBasePacked at hp
      split at hp
      · cases hp
      · split at hp
        · cases hp
        · dsimp only at hp
          split at hp
          · cases hp
          · split at hp
            · cases hp
            · split at hp
              · cases hp
              · split at hp
                · cases hp
                · next hlt =>
                  cases hp
                  exact (if_pos (by omega)).symm

/-- C97. Going through the bytes of a file by the sizes that its records report finds every record exactly if every record
is written in that size. -/
theorem C97_walk_iff (f : File) (rs : List Record) (h : Spec.Lists f rs) :
    Spec.cut (rs.map Spec.reported) f.bytes = some (rs.map Record.bytes) ↔ ∀ r ∈ rs, (r.bytes.length : Int) = Spec.reported r := by
  obtain rfl := (lists_iff f rs).1 h
  rw [cut_iff, File.bytes, File.string_eq, joinRecords_flatten, recordTexts_all, List.map_map]
  constructor
  · rintro ⟨h1, -⟩ r hr
    exact (List.map_inj_left.1 h1 r hr).symm
  · intro h1
    exact ⟨List.map_inj_left.2 fun r hr => (h1 r hr).symm, rfl⟩

theorem reported_base {enc : Enc} {fs : Fields} {g : Segs} (h : 0 ≤ Spec.bdw fs) :
    Spec.reported (.base enc fs g) = Spec.announced (.base enc fs g) := by
  show (if 0 < Spec.bdw fs then Spec.bdw fs else Spec.rdw fs) = if Spec.bdw fs = 0 then Spec.rdw fs else Spec.bdw fs
  split <;> split <;> first | rfl | omega

theorem reported_header {enc : Enc} {fs : Fields} (h : 0 ≤ Spec.bdw fs) :
    Spec.reported (.header enc fs) = Spec.announced (.header enc fs) := by
  show (if 0 < Spec.bdw fs then Spec.bdw fs else Spec.rdw fs) = if Spec.bdw fs = 0 then Spec.rdw fs else Spec.bdw fs
  split <;> split <;> first | rfl | omega

theorem reported_trailer {enc : Enc} {fs : Fields} (h : fs.Typed trailerRecordStruct) :
    Spec.reported (.trailer enc fs) = Spec.announced (.trailer enc fs) := by
  show (if 0 < Spec.rdw fs then Spec.rdw fs else Spec.rdw fs) = if Spec.bdw fs = 0 then Spec.rdw fs else Spec.bdw fs
  rw [if_pos (trailer_bdw h), ite_self]

theorem bdw_nonneg {enc : Enc} {isVar : Bool} {fs : Fields} {m : Int}
    (hb : if isVar then 0 < Spec.bdw fs ∧ Spec.bdw fs ≤ m else Spec.bdw fs = 0) : 0 ≤ Spec.bdw fs := by
  cases isVar <;> simp at hb <;> omega

/-- C97, the part that holds: in a well-formed file every record is written in the size that it reports, so its bytes can be gone
through by these sizes. -/
theorem C97_walk_partial (enc : Enc) (isVar : Bool) (f : File) (hf : Spec.GoodFile enc isVar f) (rs : List Record) (h : Spec.Lists f rs) :
    Spec.cut (rs.map Spec.reported) f.bytes = some (rs.map Record.bytes) := by
  rw [C97_walk_iff f rs h]
  obtain rfl := (lists_iff f rs).1 h
  intro r hr
  rw [Record.bytes, goodFile_measured hf r hr]
  simp only [Spec.allRecords, List.mem_cons, List.mem_append, List.not_mem_nil, or_false] at hr
  rcases hr with rfl | hr | rfl
  · obtain ⟨fs, h1, h2⟩ := hf.header
    rw [h1, reported_header (bdw_nonneg (enc := enc) h2.bdw)]
  · obtain ⟨fs, g, rfl, h2⟩ := hf.bases r hr
    rw [reported_base (bdw_nonneg (enc := enc) h2.base.bdw)]
  · obtain ⟨fs, h1, h2⟩ := hf.trailer
    rw [h1, reported_trailer h2.typed]

/-- The same for every file with fixed-length records that was read from a Metro 2 text. -/
theorem C97_read_partial (json : Bytes → Except Err File) (p : Plan) (hp : p.Progress) (data : Bytes) (f : File)
    (hj : ¬ Spec.EarlyBrace data) (h : createFile json p data = .ok f) (hb : Spec.bdw (Spec.valuesOf f.header) = 0)
    (rs : List Record) (hr : Spec.Lists f rs) :
    Spec.cut (rs.map Spec.reported) f.bytes = some (rs.map Record.bytes) := by
  have hv : Spec.isBlocked f = false := by simp [Spec.isBlocked, hb]
  have hw := wasRead_of_ok hp hj h
  rw [hv] at hw
  rw [C97_walk_iff f rs hr]
  obtain rfl := (lists_iff f rs).1 hr
  intro r hr
  rw [Record.bytes, hw.measured r hr]
  simp only [Spec.allRecords, List.mem_cons, List.mem_append, List.not_mem_nil, or_false] at hr
  rcases hr with rfl | hr | rfl
  · obtain ⟨line, fs, n, h1, h2, h3, h4, h5⟩ := hw.header
    rw [h4, reported_header (bdw_nonneg (enc := .character) (header_line h1 h3 h5).bdw)]
  · obtain ⟨line, fs, g, n, h1, rfl, h3⟩ := hw.bases r hr
    rw [reported_base (bdw_nonneg (enc := .character) (base_line h1 h3).1.bdw)]
  · obtain ⟨line, fs, n, h1, h2, h3⟩ := hw.trailer
    rw [h2, reported_trailer (trailer_line h1 h3).1]

/-- C97. A character data record with a block descriptor, whose record descriptor is 4 less, has the size that it reports exactly if its
segments leave no room in the block. -/
theorem C97_block_iff (fs : Fields) (g : Segs) (ht : fs.Typed baseSegmentStruct) (hs : Spec.SizedAll baseSegmentCharacterFormat fs)
    (hg : Spec.SegsSized g) (h1 : Spec.bdw fs ≤ 65535) (hrd : Spec.rdw fs = Spec.bdw fs - 4)
    (hc : (430 + Spec.segsLength g : Nat) ≤ Spec.bdw fs) :
    ((Record.base .character fs g).bytes.length : Int) = Spec.reported (.base .character fs g) ↔
      Spec.bdw fs = (430 + Spec.segsLength g : Nat) := by
  have hf : Spec.fixedLength .character fs = 430 := by
    unfold Spec.fixedLength
    rw [if_neg (by omega)]
    rfl
  rw [Record.bytes, C19_character_length fs g ht hs hg h1 hrd (by rw [hf]; exact hc), hf]
  have : Spec.reported (.base .character fs g) = Spec.bdw fs := if_pos (show 0 < Spec.bdw fs by omega)
  rw [this]
  omega

/-- C97. `CreateFile` of the bytes of a well-formed file gives the file back: always in the character format, and in the packed format
exactly if no record contains a CR or LF byte. (A brace in the first 1024 bytes is taken for JSON.) -/
theorem C97_created (json : Bytes → Except Err File) (p : Plan) (hp : p.Progress) (f : File) (hj : ¬ Spec.EarlyBrace f.bytes) :
    (∀ isVar, Spec.GoodFile .character isVar f → createFile json p f.bytes = .ok f) ∧
    (Spec.GoodFile .packed true f →
      (createFile json p f.bytes = .ok f ↔ ∀ rs, Spec.Lists f rs → ∀ r ∈ rs, Spec.NoBreaks r.bytes)) := by
  refine ⟨fun isVar hf => C41_read isVar f hf false hj json p hp, fun hf => ?_⟩
  rw [createFile, File.bytes, C42_iff f hf false hj json p hp, recordTexts_all]
  constructor
  · intro h rs hrs r hr
    obtain rfl := (lists_iff f rs).1 hrs
    exact h _ (List.mem_map.2 ⟨r, hr, rfl⟩)
  · intro h t ht
    obtain ⟨r, hr, rfl⟩ := List.mem_map.1 ht
    exact h _ ((lists_iff f _).2 rfl) r hr

/-! ### C98 -/

/-- C98. The name of a record tells its type, and the files take records by name: `SetRecord` takes a valid record exactly if it has the name of a
header or of a trailer of the file's format, `AddDataRecord` exactly if it has that of a data record. -/
theorem C98_set (f : File) (r : Record) :
    ((f.setRecord r).2 = none ↔ r.validate = none ∧ (r.name = (Spec.typeNames f.format).1 ∨ r.name = (Spec.typeNames f.format).2.2)) ∧
    ((f.addDataRecord r).2 = none ↔ r.validate = none ∧ r.name = (Spec.typeNames f.format).2.1) := by
  unfold File.setRecord File.addDataRecord
  cases hv : r.validate with
  | some e => simp
  | none =>
    generalize f.format = e
    cases r with
    | header a fs => cases a <;> cases e <;> simp [Record.name, Spec.typeNames] <;> decide +kernel
    | base a fs g => cases a <;> cases e <;> simp [Record.name, Spec.typeNames] <;> decide +kernel
    | trailer a fs => cases a <;> cases e <;> simp [Record.name, Spec.typeNames] <;> decide +kernel

/-- C98. The names of the six record types are different. -/
theorem C98_names (r r' : Record) : r.name = r'.name ↔
    r.enc = r'.enc ∧ ((∃ e e' a a', r = .header e a ∧ r' = .header e' a') ∨ (∃ e e' a g a' g', r = .base e a g ∧ r' = .base e' a' g') ∨
      ∃ e e' a a', r = .trailer e a ∧ r' = .trailer e' a') := by
  cases r with
  | header a fs => cases r' with
    | header b fs' => cases a <;> cases b <;> simp [Record.name, Record.enc] <;> decide +kernel
    | base b fs' g' => cases a <;> cases b <;> simp [Record.name, Record.enc] <;> decide +kernel
    | trailer b fs' => cases a <;> cases b <;> simp [Record.name, Record.enc] <;> decide +kernel
  | base a fs g => cases r' with
    | header b fs' => cases a <;> cases b <;> simp [Record.name, Record.enc] <;> decide +kernel
    | base b fs' g' => cases a <;> cases b <;> simp [Record.name, Record.enc] <;> decide +kernel
    | trailer b fs' => cases a <;> cases b <;> simp [Record.name, Record.enc] <;> decide +kernel
  | trailer a fs => cases r' with
    | header b fs' => cases a <;> cases b <;> simp [Record.name, Record.enc] <;> decide +kernel
    | base b fs' g' => cases a <;> cases b <;> simp [Record.name, Record.enc] <;> decide +kernel
    | trailer b fs' => cases a <;> cases b <;> simp [Record.name, Record.enc] <;> decide +kernel

/-- C98. The names of the eight segment types are different, and the text of a new segment begins with its name in capital letters. -/
theorem C98_segment_names (s s' : Seg) : (s.name = s'.name ↔ s.kind = s'.kind) ∧
    s.name = ((Seg.new s.kind).bytes.take 2).map (fun c => if 'A'.toNat.toUInt8 ≤ c ∧ c ≤ 'Z'.toNat.toUInt8 then c + 32 else c) := by
  obtain ⟨k, fs⟩ := s
  obtain ⟨k', fs'⟩ := s'
  simp only [Seg.name]
  constructor
  · cases k <;> cases k' <;> decide +kernel
  · cases k <;> decide +kernel

/-- C98, the part that holds: a segment that was added without an error is found under its own name, and nothing changes under the other names. -/
theorem C98_add_partial (r r' : Record) (s : Seg) (h : r.addAny (.inl s) = (r', none)) :
    s ∈ r'.getSegments s.name ∧ ∀ name, name ≠ s.name → r'.getSegments name = r.getSegments name := by
  cases r with
  | header enc fs => simp [Record.addAny, Record.addSegment] at h
  | trailer enc fs => simp [Record.addAny, Record.addSegment] at h
  | base enc fs g =>
    simp only [Record.addAny, Record.addSegment, Segs.add] at h
    cases hv : s.validate with
    | some e => simp [hv] at h
    | none =>
      simp only [hv, Prod.mk.injEq, and_true] at h
      subst h
      simp only [Record.getSegments, Seg.name]
      refine ⟨?_, fun name hn => ?_⟩
      · rw [Segs.get_store, if_pos rfl]
        unfold afterStores
        split <;> simp
      · by_cases hk : ∃ k, name = Spec.segmentName k
        · obtain ⟨k, rfl⟩ := hk
          rw [segmentName_eq] at hn ⊢
          rw [Segs.get_store, if_neg]
          rintro rfl
          exact hn rfl
        · rw [Segs.get_unknown _ _ (fun k hk' => hk ⟨k, hk'⟩), Segs.get_unknown _ _ (fun k hk' => hk ⟨k, hk'⟩)]

/-- C98 is violated for records given as segments: a data record takes every valid record without an error and drops it. -/
theorem C98_add_violated (enc : Enc) (fs : Fields) (g : Segs) (x : Record) (h : x.validate = none) :
    (Record.base enc fs g).addAny (.inr x) = (.base enc fs g, none) := by
  simp only [Record.addAny, h]

/-- Cases of `C98_add_partial` and `C98_add_violated`. A K1 segment is found under `k1`; a trailer given as a segment is taken and lost. -/
example : (Record.base .packed (base 0 366) {}).addAny (.inl k1) = (.base .packed (base 0 366) { k1 := some k1 }, none) ∧
    (Record.base .packed (base 0 366) { k1 := some k1 }).getSegments k1.name = [k1] ∧
    (Record.trailer .packed (trailer 366)).validate = none ∧
    (Record.base .packed (base 0 366) {}).addAny (.inr (.trailer .packed (trailer 366))) = (.base .packed (base 0 366) {}, none) := by
  decide +kernel

theorem parse_format {f g : File} {fuel : Nat} {buf : Bytes} {isVar : Bool} {e : Option Err} (h : f.parse fuel buf isVar = some (g, e)) :
    g.format = f.format := by
  unfold File.parse at h
  dsimp only at h
  split at h
  · cases h; rfl
  · split at h
    · cases h
    · cases h; rfl
    · split at h
      · cases h; rfl
      · split at h
        · cases h; rfl
        · split at h
          · cases h; rfl
          · split at h <;> cases h <;> rfl

theorem convert_format (f : File) (dst : Enc) :
    ((f.convert dst).2 = none → (f.convert dst).1.format = dst) ∧ ((f.convert dst).2 ≠ none → (f.convert dst).1.format = f.format) := by
  unfold File.convert
  split
  · exact ⟨fun h => (nomatch h), fun _ => rfl⟩
  · dsimp only
    split
    · exact ⟨fun h => (nomatch h), fun _ => rfl⟩
    · split
      · exact ⟨fun h => (nomatch h), fun _ => rfl⟩
      · exact ⟨fun _ => rfl, fun h => absurd rfl h⟩

/-- C98. `GetType` after `NewFile` is the name that was given; only the two names are taken. -/
theorem C98_new (name : Bytes) :
    (∀ f, newFileOf name = .ok f → f.getType = name) ∧
    ((∃ f, newFileOf name = .ok f) ↔ name = "character".toUTF8.data.toList ∨ name = "packed".toUTF8.data.toList) := by
  have e1 : Enc.character.name = "character".toUTF8.data.toList := rfl
  have e2 : Enc.packed.name = "packed".toUTF8.data.toList := rfl
  unfold newFileOf
  rw [e1, e2]
  constructor
  · intro f h
    split at h
    · next hn => cases h; exact hn.symm
    · split at h
      · next hn => cases h; exact hn.symm
      · cases h
  · constructor
    · rintro ⟨f, h⟩
      split at h
      · next hn => exact .inl hn
      · split at h
        · next hn => exact .inr hn
        · cases h
    · rintro (h | h)
      · exact ⟨_, if_pos h⟩
      · by_cases h' : name = "character".toUTF8.data.toList
        · exact ⟨_, if_pos h'⟩
        · exact ⟨_, by rw [if_neg h', if_pos h]⟩

/-- C98. `GetType` after a call on a file: the name that was given if the call was `SetType` and succeeded, else what it was. -/
theorem C98_type (f g : File) (op : Spec.Op) (e : Option Err) (h : Spec.Step f op g e) :
    (∀ name, op = .setType name → e = none → g.getType = name) ∧
    ((∀ name, op = .setType name → e ≠ none) → g.getType = f.getType) := by
  have hset : ∀ r, (f.setRecord r).1.format = f.format := by
    intro r
    rcases f.setRecord_cases r with ⟨e, h⟩ | ⟨fs, hfs, -, h⟩ | ⟨fs, hfs, -, h⟩ <;> rw [h]
  cases h with
  | setRecord r => exact ⟨fun _ h => (nomatch h), fun _ => congrArg Enc.name (hset r)⟩
  | addDataRecord r =>
    refine ⟨fun _ h => (nomatch h), fun _ => congrArg Enc.name ?_⟩
    rcases f.addDataRecord_cases r with ⟨e, h⟩ | ⟨hb, -, h⟩ <;> rw [h]
  | setType name =>
    by_cases hn : ∃ e : Enc, name = e.name
    · obtain ⟨dst, rfl⟩ := hn
      rw [File.setType_name]
      split
      · next hd =>
        refine ⟨?_, fun h => absurd rfl (h _ rfl)⟩
        intro name h _
        cases h
        exact congrArg Enc.name hd
      · refine ⟨?_, fun h => congrArg Enc.name ((convert_format f dst).2 (h _ rfl))⟩
        intro name h he
        cases h
        exact congrArg Enc.name ((convert_format f dst).1 he)
    · rw [File.setType_other f fun e he => hn ⟨e, he⟩]
      exact ⟨fun _ _ h => (nomatch h), fun _ => rfl⟩
  | parse h => exact ⟨fun _ h => (nomatch h), fun _ => congrArg Enc.name (parse_format h)⟩
  | generated h => exact ⟨fun _ h => (nomatch h), fun _ => congrArg Enc.name (hset _)⟩
  | notGenerated h => exact ⟨fun _ h => (nomatch h), fun _ => rfl⟩

/-- C98, the part that holds: in a character file `GetRecord` finds header and trailer by the names that they give themselves. -/
theorem C98_get_partial (f : File) (h : Spec.Reachable f) (hc : f.getType = "character".toUTF8.data.toList) :
    f.getRecord f.header.name = .ok f.header ∧ f.getRecord f.trailer.name = .ok f.trailer := by
  obtain ⟨hu, -⟩ := C32_reachable h
  have he : f.format = .character := by
    revert hc
    unfold File.getType
    cases f.format
    · exact fun _ => rfl
    · intro h'; exact absurd h' (by decide +kernel)
  obtain ⟨fs, hh⟩ := hu.header
  obtain ⟨ts, ht⟩ := hu.trailer
  have e1 : f.header.name = b! "header" := by rw [hh, he]; rfl
  have e2 : f.trailer.name = b! "trailer" := by rw [ht, he]; rfl
  rw [e1, e2]
  unfold File.getRecord
  exact ⟨if_pos rfl, by rw [if_neg (by decide +kernel), if_pos rfl]⟩

/-- C98 is violated for packed files: `GetRecord` takes neither the name of the header nor that of the trailer. -/
theorem C98_violated (f : File) (h : Spec.Reachable f) (hc : f.getType = "packed".toUTF8.data.toList) :
    f.getRecord f.header.name = .error .invalidRecord ∧ f.getRecord f.trailer.name = .error .invalidRecord := by
  obtain ⟨hu, -⟩ := C32_reachable h
  have he : f.format = .packed := by
    revert hc
    unfold File.getType
    cases f.format
    · intro h'; exact absurd h' (by decide +kernel)
    · exact fun _ => rfl
  obtain ⟨fs, hh⟩ := hu.header
  obtain ⟨ts, ht⟩ := hu.trailer
  have e1 : f.header.name = b! "headerPacked" := by rw [hh, he]; rfl
  have e2 : f.trailer.name = b! "trailerPacked" := by rw [ht, he]; rfl
  rw [e1, e2]
  unfold File.getRecord
  exact ⟨by rw [if_neg (by decide +kernel), if_neg (by decide +kernel)], by rw [if_neg (by decide +kernel), if_neg (by decide +kernel)]⟩

/-! ### Cases -/

/-- C97 is violated: a text whose header announces 428 bytes is read, the header is written with 430, and the sizes that the records
report do not lead through the bytes. -/
theorem C97_violated : ∃ data f, ¬ Spec.EarlyBrace data ∧ (∀ (json : Bytes → Except Err File) (p : Plan), p.Progress →
    createFile json p data = .ok f) ∧ ∀ rs, Spec.Lists f rs → Spec.cut (rs.map Spec.reported) f.bytes = none := by
  refine ⟨shortText, shortFile, by decide +kernel, fun json p hp => read_of_atOnce (by decide +kernel) (by decide +kernel) (by decide +kernel) json hp, ?_⟩
  intro rs h
  obtain rfl := (lists_iff _ rs).1 h
  decide +kernel

/-- Cases of `C97_walk_iff` and `C97_walk_partial`. Non-vacuity: a file with blocks. -/
example : Spec.Lists variableFile (Spec.allRecords variableFile) ∧
    (Spec.allRecords variableFile).map Spec.reported = [430, 430, 1168, 426] ∧
    Spec.cut [430, 430, 1168, 426] variableFile.bytes = some ((Spec.allRecords variableFile).map Record.bytes) := by
  have hr : (Spec.allRecords variableFile).map Spec.reported = [430, 430, 1168, 426] := by decide +kernel
  have h := C97_walk_partial .character true variableFile variableFile_good _ ((lists_iff _ _).2 rfl)
  rw [hr] at h
  exact ⟨(lists_iff _ _).2 rfl, hr, h⟩

/-- A file that was read from another text than it is written as. -/
example : Spec.cut ((Spec.allRecords (creditFile 0 (-5))).map Spec.reported) (creditFile 0 (-5)).bytes =
    some ((Spec.allRecords (creditFile 0 (-5))).map Record.bytes) :=
  C97_read_partial (fun _ => .error .io) slow slow_progress (signedText "-") (creditFile 0 (-5)) (by decide +kernel)
    (read_of_atOnce (by decide +kernel) (by decide +kernel) (by decide +kernel) _ slow_progress) (by decide +kernel) _ ((lists_iff _ _).2 rfl)

/-- Case of `C97_parse`. `Parse` into a record that was used before. -/
example : ((Record.base .character (base 500 496) segs).parse (Record.base .character (base 430 426) {}).string true).2 = .ok 430 ∧
    Spec.reported ((Record.base .character (base 500 496) segs).parse (Record.base .character (base 430 426) {}).string true).1 = 430 := by
  decide +kernel

/-- Cases of `C97_segment` and `C98_segment_names`. A segment: its `Length`, what `Parse` reports, and its text. -/
example : (Seg.new .j1).parse (j1.string ++ [65]) false = (j1, .ok 100) ∧ j1.bytes.length = 100 ∧ j1.name = b! "j1" := by
  decide +kernel

/-- Case of `C97_block_iff`. A block with room has 496 bytes instead of 500; a block without has its 1168. -/
example : (430 + Spec.segsLength {} : Nat) ≤ Spec.bdw (base 500 496) ∧ Spec.rdw (base 500 496) = Spec.bdw (base 500 496) - 4 ∧
    Spec.reported (.base .character (base 500 496) {}) = 500 ∧ (Record.base .character (base 500 496) {}).bytes.length = 496 ∧
    Spec.bdw (base 1168 1164) = (430 + Spec.segsLength segs : Nat) ∧ Spec.reported (.base .character (base 1168 1164) segs) = 1168 := by
  decide +kernel

/-- `CreateFile` on the bytes of a packed file and of a character file. -/
example (json : Bytes → Except Err File) : createFile json slow packedFile.bytes = .ok packedFile ∧
    createFile json slow fixedFile.bytes = .ok fixedFile := by
  refine ⟨((C97_created json slow slow_progress packedFile (packedFile_noBrace false)).2 packedFile_good).2 ?_,
    (C97_created json slow slow_progress fixedFile (fixedFile_noBrace false)).1 false fixedFile_good⟩
  intro rs hrs r hr
  obtain rfl := (lists_iff _ rs).1 hrs
  exact packedFile_noBreaks _ (by rw [recordTexts_all]; exact List.mem_map.2 ⟨r, hr, rfl⟩)

/-- Cases of `C98_set` and `C98_names`. Names: a valid trailer of the other format is refused. -/
example : (Record.trailer .packed (trailer 366)).validate = none ∧ (Record.trailer .packed (trailer 366)).name = b! "trailerPacked" ∧
    ((newFile .packed).setRecord (.trailer .packed (trailer 366))).2 = none ∧
    ((newFile .character).setRecord (.trailer .packed (trailer 366))).2 = some .invalidRecord := by
  decide +kernel

/-- Cases of `C98_new` and `C98_type`. A file that becomes a packed file. -/
example : Spec.Reachable ((newFile .character).setType (b! "packed")).1 ∧ ((newFile .character).setType (b! "packed")).1.getType = b! "packed" ∧
    ((newFile .character).setType (b! "packed")).1.getRecord (b! "headerPacked") = .error .invalidRecord :=
  ⟨.step (op := .setType (b! "packed")) (.new .character) trivial (.setType _), by decide +kernel, by decide +kernel⟩

/-- Case of `C98_get_partial`. -/
example : Spec.Reachable ((newFile .character).addDataRecord Samples.dataRecord).1 ∧
    ((newFile .character).addDataRecord Samples.dataRecord).1.getType = b! "character" ∧
    ((newFile .character).addDataRecord Samples.dataRecord).1.bases.length = 1 :=
  ⟨.step (op := .addDataRecord Samples.dataRecord) (.new .character) Samples.dataRecord_typed (.addDataRecord _), by decide +kernel, by decide +kernel⟩

end Metro2
