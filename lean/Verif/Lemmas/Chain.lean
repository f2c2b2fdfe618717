import Verif.Lemmas.Filled
import Verif.Lemmas.JsonFile
import Verif.Props.JsonText
import Verif.Spec.Chain

/-! Files that can be written can be carried by JSON; the two formats are written differently. -/

namespace Metro2

/-- A number of a row is exact in a `float64`. -/
def smallRow (e : Field) : Bool :=
  match e.typ with
  | .numeric => decide (e.len ≤ 15)
  | .packedNumber => decide (e.len ≤ 6)
  | _ => true

/-- All rows of a struct are of this kind. (The reserved places, one of them a number of 19 digits, are no fields of the structs.) -/
def smallRows (fmt : Format) (decl : List (F × FieldDecl)) : Bool :=
  fmt.all fun p => smallRow p.2 || !(decl.map (·.1)).contains p.1

theorem permitted_ascii {c : UInt8} (h : Spec.Permitted c) : c < 0x80 := by
  obtain ⟨-, h, -⟩ := h
  have : '~'.toNat = 126 := rfl
  rw [UInt8.lt_iff_toNat_lt]
  have : (0x80 : UInt8).toNat = 128 := rfl
  omega

theorem jsonVal_of_fits {e : Field} {v : Val} (hs : smallRow e = true) (h : Spec.Fits e v) : Spec.JsonVal v := by
  have p15 : (10 : Int) ^ 15 ≤ 2 ^ 53 := by decide
  have p6 : (256 : Int) ^ 6 ≤ 2 ^ 53 := by decide
  have mono : ∀ {b m n : Nat}, 1 ≤ b → m ≤ n → ((b : Int) ^ m : Int) ≤ (b : Int) ^ n := fun hb h => by
    have := Nat.pow_le_pow_right hb h
    exact_mod_cast this
  unfold Spec.Fits at h
  unfold smallRow at hs
  cases ht : e.typ <;> cases v <;> simp only [ht] at h hs <;> try exact h.elim
  · exact utf8_of_ascii fun c hc => permitted_ascii (h.2.1 c hc)
  · rename_i i
    have hl : e.len ≤ 15 := of_decide_eq_true hs
    obtain ⟨h | h, -⟩ := h
    · have : (10 : Int) ^ e.len ≤ 10 ^ 15 := mono (b := 10) (by decide) hl
      simp only [Spec.JsonVal]
      omega
    · have : (10 : Int) ^ (e.len - 1) ≤ 10 ^ 15 := mono (b := 10) (by decide) (show e.len - 1 ≤ 15 by omega)
      have : (0 : Int) < 10 ^ (e.len - 2) := Int.pow_pos (by decide)
      simp only [Spec.JsonVal]
      omega
  · exact h.1
  · exact h.1
  · simp only [Spec.JsonVal]; omega
  · exact h
  · exact h.1
  · rename_i i
    have hl : e.len ≤ 6 := of_decide_eq_true hs
    have : (256 : Int) ^ e.len ≤ 256 ^ 6 := mono (b := 256) (by decide) hl
    simp only [Spec.JsonVal]
    omega

theorem jsonFields_of_fits {fmt : Format} {decl : List (F × FieldDecl)} {L : Nat} (h : Layout fmt decl L)
    (hs : smallRows fmt decl = true) {fs : Fields} (ht : fs.Typed decl) (hf : Spec.FitsAll fmt fs)
    (hb : ∀ v, (.BlockDescriptorWord, v) ∈ fs → Spec.JsonVal v) : Spec.JsonFields decl fs := by
  refine ⟨ht, fun p hp => ?_⟩
  by_cases hp1 : p.1 = .BlockDescriptorWord
  · exact hb p.2 (by rw [← hp1]; exact hp)
  · obtain ⟨d, hd, -⟩ := ht.mem (f := p.1) (v := p.2) hp
    obtain ⟨e, he, -⟩ := h.hasRow _ hd
    have := List.all_eq_true.1 hs _ he
    have hc : (decl.map (·.1)).contains p.1 = true := List.contains_iff_mem.2 (List.mem_map.2 ⟨_, hd, rfl⟩)
    rw [hc, Bool.not_true, Bool.or_false] at this
    exact jsonVal_of_fits this (hf p hp hp1 e he)

theorem small_header (enc : Enc) : smallRows enc.headerFormat headerRecordStruct = true := by cases enc <;> decide +kernel
theorem small_base (enc : Enc) : smallRows enc.baseFormat baseSegmentStruct = true := by cases enc <;> decide +kernel
theorem small_trailer (enc : Enc) : smallRows enc.trailerFormat trailerRecordStruct = true := by cases enc <;> decide +kernel
theorem small_segment (k : SegKind) : smallRows k.format k.struct = true := by cases k <;> decide +kernel

theorem jsonSeg_of_ok {k : SegKind} {s : Seg} (h : Spec.SegmentOk k s) : Spec.JsonSeg k s := by
  refine ⟨h.kind, jsonFields_of_fits (layout_segment k) (small_segment k) h.typed h.fits fun v hv => ?_, h.valid⟩
  obtain ⟨d, hd, -⟩ := h.typed.mem hv
  obtain ⟨e, he, -⟩ := (layout_segment k).hasRow _ hd
  have := seg_noBdwRow k
  rw [bdwRows, List.filter_eq_nil_iff] at this
  exact absurd (this _ he) (by simp)

theorem bdw_jsonVal {enc : Enc} {isVar : Bool} {fmt : Format} {decl : List (F × FieldDecl)} (hB : Blocked enc fmt decl) {fs : Fields}
    (ht : fs.Typed decl) (hb : if isVar then 0 < Spec.bdw fs ∧ Spec.bdw fs ≤ Spec.wordMax enc else Spec.bdw fs = 0) :
    ∀ v, (.BlockDescriptorWord, v) ∈ fs → Spec.JsonVal v := by
  intro v hv
  obtain ⟨b, r, fr, rfl, h1, -, h2⟩ := hB.shape ht
  have hvb : v = .int b := by
    simp only [List.mem_cons, Prod.mk.injEq, true_and, reduceCtorEq, false_and, false_or] at hv
    rcases hv with h | h
    · exact h
    · exact absurd rfl (h2 _ h).1
  subst hvb
  have hbb : Spec.bdw ((F.BlockDescriptorWord, Val.int b) :: (F.RecordDescriptorWord, Val.int r) :: fr) = b := h1
  rw [hbb] at hb
  have : Spec.wordMax enc ≤ 65535 := by cases enc <;> decide
  simp only [Spec.JsonVal]
  cases isVar
  · simp only [Bool.false_eq_true, if_false] at hb
    omega
  · simp only [if_true] at hb
    omega

/-- A file that can be written can be carried by JSON. -/
theorem goodFile_json {enc : Enc} {isVar : Bool} {f : File} (h : Spec.GoodFile enc isVar f) : Spec.JsonFile enc f := by
  refine ⟨h.format, ?_, fun r hr => ?_, ?_⟩
  · obtain ⟨fs, h1, h2⟩ := h.header
    exact ⟨fs, h1, jsonFields_of_fits (layout_header enc) (small_header enc) h2.typed h2.fits
      (bdw_jsonVal (blocked_header enc) h2.typed h2.bdw)⟩
  · obtain ⟨fs, g, h1, h2⟩ := h.bases r hr
    have h3 := h2.base
    refine ⟨fs, g, h1, jsonFields_of_fits (layout_base enc) (small_base enc) h3.typed h3.fits
      (bdw_jsonVal (blocked_base enc) h3.typed h3.bdw), ?_⟩
    have h4 := h3.segs
    exact ⟨fun s hs => jsonSeg_of_ok (h4.j1 s hs), fun s hs => jsonSeg_of_ok (h4.j2 s hs), fun s hs => jsonSeg_of_ok (h4.k1 s hs),
      fun s hs => jsonSeg_of_ok (h4.k2 s hs), fun s hs => jsonSeg_of_ok (h4.k3 s hs), fun s hs => jsonSeg_of_ok (h4.k4 s hs),
      fun s hs => jsonSeg_of_ok (h4.l1 s hs), fun s hs => jsonSeg_of_ok (h4.n1 s hs)⟩
  · obtain ⟨fs, h1, h2⟩ := h.trailer
    refine ⟨fs, h1, jsonFields_of_fits (layout_trailer enc) (small_trailer enc) h2.typed h2.fits fun v hv => ?_⟩
    obtain ⟨d, hd, -⟩ := h2.typed.mem hv
    obtain ⟨e, he, -⟩ := (layout_trailer enc).hasRow _ hd
    have := trailer_noBdwRow enc
    rw [bdwRows, List.filter_eq_nil_iff] at this
    exact absurd (this _ he) (by simp)

/-! ### The third byte tells the format -/

theorem third_packed {b : Int} (hb : b ≠ 0) : (toStr (bdwField .packed) (some (.int b)))[2]? = some 0 := by
  rw [toStr_some (by simp [hb])]
  show (descriptorString b)[2]? = some 0
  simp only [descriptorString]
  rw [List.getElem?_append_right (by simp)]
  simp

theorem third_character {b : Int} (hb : 0 < b) : (toStr (bdwField .character) (some (.int b)))[2]? ≠ some 0 := by
  intro h
  rw [toStr_some (by simp; omega)] at h
  have h : (0 : UInt8) ∈ fmtZeroStr 4 (fmtInt b) := List.mem_of_getElem? h
  have hd : ∀ c ∈ fmtInt b, c ≠ 0 := by
    intro c hc
    cases b with
    | ofNat n =>
      have := fmtNat_all n c hc
      rintro rfl
      exact absurd this (by decide)
    | negSucc n => omega
  simp only [fmtZeroStr, List.mem_append, List.mem_replicate] at h
  rcases h with ⟨-, h⟩ | h
  · exact absurd h (by decide)
  · obtain ⟨k, hk⟩ := takeRunes_prefix 4 (fmtInt b)
    rw [hk] at h
    exact hd 0 (List.mem_of_mem_take h) rfl

theorem header_third {enc : Enc} {fs : Fields} (ht : fs.Typed headerRecordStruct) (hb : Spec.bdw fs ≠ 0) (rest : Bytes) :
    ((Record.header enc fs).string ++ rest)[2]? = (toStr (bdwField enc) (some (.int (Spec.bdw fs))))[2]? := by
  have hl := bdwText_length enc hb
  rw [Record.string, padTo, (layout_header enc).text, (blocked_header enc).bdwText ht]
  simp only [List.append_assoc]
  rw [List.getElem?_append_left (by have : fs.int .BlockDescriptorWord = Spec.bdw fs := rfl; rw [this, hl]; decide)]
  rfl

/-- A file with a block descriptor is written differently in the two formats. -/
theorem formats_differ {f : File} {enc : Enc} {fs : Fields} (hh : f.header = .header enc fs) (ht : fs.Typed headerRecordStruct)
    (hb : 0 < Spec.bdw fs) (nl : Bool) : (Spec.fileIn .character f).string nl ≠ (Spec.fileIn .packed f).string nl := by
  intro h
  have h := congrArg (fun s : Bytes => s[2]?) h
  simp only [File.string, Spec.fileIn, hh, Spec.inFormat, List.append_assoc] at h
  rw [header_third ht (by omega), header_third ht (by omega), third_packed (by omega)] at h
  exact third_character hb h

/-- What is read from the JSON of a file. -/
theorem json_read {env : JsonEnv} (he : Spec.JsonEnvOk env) {visits : Nat → List (Bytes × Json) → List (Bytes × Json)}
    (hv : Spec.MapOrders visits) {enc : Enc} {f : File} (hf : Spec.JsonFile enc f) (p : Plan) {text : Bytes}
    (ht : text ∈ [encodeText f.toJson, indentText "\t".toUTF8.data.toList 0 f.toJson, indentText "  ".toUTF8.data.toList 0 f.toJson]) :
    newFileFromReader (readJson env visits firstJson) p text false =
      .ok (Spec.fileIn (if Spec.headerRdw f = 426 ∨ Spec.headerBdw f ≤ 0 then .character else .packed) f) := by
  have hc : Clean Spec.deepest f.toJson := clean_file 9995 f
  have main : ∀ {t : Bytes} (r : Bytes), Spec.JsonText Spec.deepest f.toJson t →
      newFileFromReader (readJson env visits firstJson) p (t ++ r) false =
      .ok (Spec.fileIn (if Spec.headerRdw f = 426 ∨ Spec.headerBdw f ≤ 0 then .character else .packed) f) := fun {t} r h => by
    obtain ⟨kvs, hk⟩ := toJson_obj f
    rw [hk] at h
    have h1 := firstJson_obj (r := r) space_nil h
    have h2 := earlyBrace_obj (w := []) (r := r) (by decide) h
    simp only [List.nil_append] at h1 h2
    rw [newFile_json _ p h2, readJson_toJson he hv hf (by rw [hk]; exact h1)]
  simp only [List.mem_cons, List.not_mem_nil, or_false] at ht
  rcases ht with rfl | rfl | rfl
  · exact main [10] (jsonText_clean hc)
  · have := main [] (indentText_clean space_tab hc 0)
    rwa [List.append_nil] at this
  · have := main [] (indentText_clean space_two hc 0)
    rwa [List.append_nil] at this

/-- The text written from what is read from the JSON of a good file. -/
theorem chain_text {enc : Enc} {isVar : Bool} {f : File} (h : Spec.GoodFile enc isVar f) (nl : Bool) :
    (Spec.fileIn (if Spec.headerRdw f = 426 ∨ Spec.headerBdw f ≤ 0 then .character else .packed) f).string nl = f.string nl ↔
      Spec.Detectable enc f := by
  have hj := goodFile_json h
  obtain ⟨fs, hh, hg⟩ := h.header
  have hbd : Spec.headerBdw f = Spec.bdw fs := by rw [Spec.headerBdw, hh]; rfl
  have hb := hg.bdw
  have hp := hg.packed
  by_cases hd : Spec.headerRdw f = 426 ∨ Spec.headerBdw f ≤ 0
  · rw [if_pos hd]
    cases enc with
    | character => rw [fileIn_self hj]; exact iff_of_true rfl hd
    | packed =>
      rw [hp rfl] at hb
      have hne := formats_differ hh hg.typed hb.1 nl
      rw [fileIn_self hj] at hne
      refine iff_of_false hne fun hd' => ?_
      obtain ⟨h1, h2⟩ := hd'
      omega
  · rw [if_neg hd]
    cases enc with
    | packed => rw [fileIn_self hj]; exact iff_of_true rfl ⟨fun h => hd (.inl h), by omega⟩
    | character =>
      have hne := formats_differ hh hg.typed (by omega) nl
      rw [fileIn_self hj] at hne
      exact iff_of_false (fun h => hne h.symm) hd

end Metro2
