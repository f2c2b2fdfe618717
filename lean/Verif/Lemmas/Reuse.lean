import Verif.Lemmas.RecordParse
import Verif.Model.File

/-! The field loop does not depend on the previous values of the fields it assigns. -/

namespace Metro2

/-- Two structs of one type. -/
inductive Kin : Fields → Fields → Prop where
  | nil : Kin [] []
  | cons {f : F} {v w : Val} {fs gs : Fields} (k : Kind) (hv : v.hasKind k = true) (hw : w.hasKind k = true)
      (h : Kin fs gs) : Kin ((f, v) :: fs) ((f, w) :: gs)

theorem Kin.ofTyped {decl : List (F × FieldDecl)} {fs gs : Fields} (hf : fs.Typed decl)
    (hg : gs.Typed decl) : Kin fs gs := by
  induction decl generalizing fs gs with
  | nil =>
    cases fs with
    | nil => cases gs with
      | nil => exact .nil
      | cons => exact hg.elim
    | cons => exact hf.elim
  | cons d ds ih =>
    obtain ⟨f, d⟩ := d
    cases fs with
    | nil => exact hf.elim
    | cons p fs =>
      cases gs with
      | nil => exact hg.elim
      | cons q gs =>
        obtain ⟨f1, v⟩ := p
        obtain ⟨f2, w⟩ := q
        obtain ⟨rfl, h1, h2⟩ := hf
        obtain ⟨rfl, h3, h4⟩ := hg
        exact .cons _ h1 h3 (ih h2 h4)

theorem setVal_forget {v w : Val} {k : Kind} (hv : v.hasKind k = true) (hw : w.hasKind k = true) (new : Val) :
    setVal v new = setVal w new := by
  cases k <;> cases v <;> cases w <;> cases new <;> first | rfl | (simp [Val.hasKind] at hv hw; done)

theorem parseLoop_forget {fmt : Format} {pol : BdwPolicy} {bounds : Bool} {rec : Bytes} {a b : Fields}
    (h : Kin a b) (hs : pol = .skip → ∀ v w, (F.BlockDescriptorWord, v) ∈ a → (F.BlockDescriptorWord, w) ∈ b → v = w)
    (off : Nat) :
    (parseLoop fmt pol bounds rec off a).2 = (parseLoop fmt pol bounds rec off b).2 ∧
      ((parseLoop fmt pol bounds rec off a).2 = none →
        (parseLoop fmt pol bounds rec off a).1 = (parseLoop fmt pol bounds rec off b).1) := by
  induction h generalizing off with
  | nil => simp [parseLoop]
  | @cons f v w fs gs k hv hw h ih =>
    have ih := fun off => ih (fun hp v w h1 h2 => hs hp v w (List.mem_cons_of_mem _ h1) (List.mem_cons_of_mem _ h2)) off
    have hvw : f = .BlockDescriptorWord → pol = .skip → v = w := fun h1 h2 =>
      hs h2 v w (by rw [h1]; exact List.mem_cons_self) (by rw [h1]; exact List.mem_cons_self)
    rw [parseLoop, parseLoop]
    cases fmt.lookup f with
    | none => simp
    | some e =>
      simp only
      split
      · simp
      · cases slice rec (e.start + off) (e.start + e.len + off) with
        | none => simp
        | some data =>
          simp only
          cases isValidType e f data with
          | some err => simp
          | none =>
            simp only
            cases parseValue e data with
            | error err => simp
            | ok new =>
              simp only [setVal_forget hv hw new]
              split
              · have := hvw rfl rfl
                subst this
                exact ⟨(ih off).1, fun hn => by rw [(ih off).2 hn]⟩
              · simp
              · cases setVal w new with
                | none => simp
                | some x => exact ⟨(ih _).1, fun hn => by rw [(ih _).2 hn]⟩
              · cases setVal w new with
                | none => simp
                | some x => exact ⟨(ih _).1, fun hn => by rw [(ih _).2 hn]⟩

theorem bdw_forget {enc : Enc} {fmt : Format} {decl : List (F × FieldDecl)} (hb : Blocked enc fmt decl) {a b : Fields}
    (ha : a.Typed decl) (hb' : b.Typed decl) (h : a.int .BlockDescriptorWord = b.int .BlockDescriptorWord) :
    ∀ v w, (F.BlockDescriptorWord, v) ∈ a → (F.BlockDescriptorWord, w) ∈ b → v = w := by
  intro v w hv hw
  obtain ⟨i, r, fr, rfl, h1, -, hfr⟩ := hb.shape ha
  obtain ⟨i', r', fr', rfl, h2, -, hfr'⟩ := hb.shape hb'
  have e1 : v = .int i := by
    rcases List.mem_cons.1 hv with e | hv
    · cases e; rfl
    · rcases List.mem_cons.1 hv with e | hv
      · cases e
      · exact absurd rfl (hfr _ hv).1
  have e2 : w = .int i' := by
    rcases List.mem_cons.1 hw with e | hw
    · cases e; rfl
    · rcases List.mem_cons.1 hw with e | hw
      · cases e
      · exact absurd rfl (hfr' _ hw).1
  rw [e1, e2, ← h1, ← h2, h]

theorem header_forget {enc : Enc} {isVar : Bool} {a b : Fields} (ha : a.Typed headerRecordStruct)
    (hb : b.Typed headerRecordStruct)
    (h : enc = .character → isVar = false → a.int .BlockDescriptorWord = b.int .BlockDescriptorWord) (rec : Bytes) :
    (parseHeader enc a rec isVar).2 = (parseHeader enc b rec isVar).2 ∧
      ∀ n, (parseHeader enc a rec isVar).2 = .ok n → (parseHeader enc a rec isVar).1 = (parseHeader enc b rec isVar).1 := by
  have hp := parseLoop_forget (fmt := enc.headerFormat) (pol := headerPolicy enc rec isVar) (bounds := true) (rec := rec)
    (Kin.ofTyped ha hb) (by
      intro hs
      cases enc with
      | character =>
        cases isVar with
        | true => simp [headerPolicy] at hs
        | false => exact bdw_forget (blocked_header .character) ha hb (h rfl rfl)
      | packed =>
        simp only [headerPolicy] at hs
        split at hs <;> cases hs) 0
  unfold parseHeader
  split
  · simp
  · obtain ⟨h1, h2⟩ := hp
    generalize hx : parseLoop enc.headerFormat (headerPolicy enc rec isVar) true rec 0 a = x at *
    generalize hy : parseLoop enc.headerFormat (headerPolicy enc rec isVar) true rec 0 b = y at *
    obtain ⟨x1, x2⟩ := x
    obtain ⟨y1, y2⟩ := y
    simp only at h1 h2
    subst h1
    cases x2 with
    | some e => simp
    | none =>
      have := h2 rfl
      subst this
      simp

theorem trailer_forget {enc : Enc} {isVar : Bool} {a b : Fields} (ha : a.Typed trailerRecordStruct)
    (hb : b.Typed trailerRecordStruct) (rec : Bytes) :
    (parseTrailer enc a rec isVar).2 = (parseTrailer enc b rec isVar).2 ∧
      ∀ n, (parseTrailer enc a rec isVar).2 = .ok n → (parseTrailer enc a rec isVar).1 = (parseTrailer enc b rec isVar).1 := by
  have hp : ∀ pol bounds, _ := fun pol bounds => parseLoop_forget (fmt := enc.trailerFormat) (pol := pol) (bounds := bounds)
    (rec := rec) (Kin.ofTyped ha hb) (by
      intro _ v w hv
      obtain ⟨d, hd, -⟩ := ha.mem hv
      exact absurd rfl (trailer_noBdw _ hd)) 0
  have ht : (trailerLoop enc a rec isVar).2 = (trailerLoop enc b rec isVar).2 ∧
      ((trailerLoop enc a rec isVar).2 = none → (trailerLoop enc a rec isVar).1 = (trailerLoop enc b rec isVar).1) := by
    cases enc <;> exact hp _ _
  unfold parseTrailer
  split
  · simp
  · obtain ⟨h1, h2⟩ := ht
    generalize hx : trailerLoop enc a rec isVar = x at *
    generalize hy : trailerLoop enc b rec isVar = y at *
    obtain ⟨x1, x2⟩ := x
    obtain ⟨y1, y2⟩ := y
    simp only at h1 h2
    subst h1
    cases x2 with
    | some e => simp
    | none =>
      have := h2 rfl
      subst this
      simp

theorem segment_noBdw (k : SegKind) : ∀ p ∈ k.struct, p.1 ≠ .BlockDescriptorWord := by
  cases k <;> decide +kernel

theorem segment_forget {k : SegKind} {isVar : Bool} {a b : Fields} (ha : a.Typed k.struct) (hb : b.Typed k.struct)
    (rec : Bytes) :
    ((⟨k, a⟩ : Seg).parse rec isVar).2 = ((⟨k, b⟩ : Seg).parse rec isVar).2 ∧
      ∀ n, ((⟨k, a⟩ : Seg).parse rec isVar).2 = .ok n →
        ((⟨k, a⟩ : Seg).parse rec isVar).1 = ((⟨k, b⟩ : Seg).parse rec isVar).1 := by
  obtain ⟨h1, h2⟩ := parseLoop_forget (fmt := k.format) (pol := if isVar then .accept else .skip) (bounds := true)
    (rec := rec) (Kin.ofTyped ha hb) (by
      intro _ v w hv
      obtain ⟨d, hd, -⟩ := ha.mem hv
      exact absurd rfl (segment_noBdw _ _ hd)) 0
  unfold Seg.parse
  simp only
  split
  · simp
  · generalize hx : parseLoop k.format (if isVar then .accept else .skip) true rec 0 a = x at *
    generalize hy : parseLoop k.format (if isVar then .accept else .skip) true rec 0 b = y at *
    obtain ⟨x1, x2⟩ := x
    obtain ⟨y1, y2⟩ := y
    simp only at h1 h2
    subst h1
    cases x2 with
    | some e => simp
    | none =>
      have := h2 rfl
      subst this
      simp

/-- The field loop of a data record. -/
theorem baseLoop_forget {enc : Enc} {pol : BdwPolicy} {a b : Fields} (ha : a.Typed baseSegmentStruct)
    (hb : b.Typed baseSegmentStruct)
    (h : pol = .skip → a.int .BlockDescriptorWord = b.int .BlockDescriptorWord) (rec : Bytes) :
    (parseLoop enc.baseFormat pol true rec 0 a).2 = (parseLoop enc.baseFormat pol true rec 0 b).2 ∧
      ((parseLoop enc.baseFormat pol true rec 0 a).2 = none →
        (parseLoop enc.baseFormat pol true rec 0 a).1 = (parseLoop enc.baseFormat pol true rec 0 b).1) :=
  parseLoop_forget (Kin.ofTyped ha hb) (fun hs => bdw_forget (blocked_base enc) ha hb (h hs)) 0

theorem base_forget {enc : Enc} {isVar : Bool} {a b : Fields} {g g' : Segs} (ha : a.Typed baseSegmentStruct)
    (hb : b.Typed baseSegmentStruct)
    (h : enc = .character → isVar = false → a.int .BlockDescriptorWord = b.int .BlockDescriptorWord)
    (hg : { g with j1 := [], j2 := [] } = { g' with j1 := [], j2 := [] }) (rec : Bytes) :
    ((Record.base enc a g).parse rec isVar).2 = ((Record.base enc b g').parse rec isVar).2 ∧
      ∀ n, ((Record.base enc a g).parse rec isVar).2 = .ok n →
        ((Record.base enc a g).parse rec isVar).1 = ((Record.base enc b g').parse rec isVar).1 := by
  cases enc with
  | character =>
    obtain ⟨h1, h2⟩ := baseLoop_forget (enc := .character) (pol := if isVar then .accept else .skip) ha hb
      (by cases isVar <;> simp_all) rec
    simp only [Record.parse, parseBaseCharacter]
    simp only [Enc.baseFormat] at h1 h2
    split
    · simp
    · generalize hx : parseLoop baseSegmentCharacterFormat (if isVar then .accept else .skip) true rec 0 a = x at *
      generalize hy : parseLoop baseSegmentCharacterFormat (if isVar then .accept else .skip) true rec 0 b = y at *
      obtain ⟨x1, x2⟩ := x
      obtain ⟨y1, y2⟩ := y
      simp only at h1 h2
      subst h1
      cases x2 with
      | some e => simp
      | none =>
        have := h2 rfl
        subst this
        simp only [hg]
        simp
  | packed =>
    obtain ⟨h1, h2⟩ := baseLoop_forget (enc := .packed) (pol := if isVar then .accept else .fail) ha hb
      (by cases isVar <;> simp_all) rec
    simp only [Record.parse, parseBasePacked]
    simp only [Enc.baseFormat] at h1 h2
    split
    · simp
    · generalize hx : parseLoop baseSegmentPackedFormat (if isVar then .accept else .fail) true rec 0 a = x at *
      generalize hy : parseLoop baseSegmentPackedFormat (if isVar then .accept else .fail) true rec 0 b = y at *
      obtain ⟨x1, x2⟩ := x
      obtain ⟨y1, y2⟩ := y
      simp only at h1 h2
      subst h1
      cases x2 with
      | some e => simp
      | none =>
        have := h2 rfl
        subst this
        simp only [hg]
        simp

end Metro2
