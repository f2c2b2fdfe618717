import Verif.Props.Fields
import Verif.Props.Rules
import Verif.Props.Validate
import Verif.Props.Reread
import Verif.Props.Reader
import Verif.Props.Own
import Verif.Props.JsonText
import Verif.Props.Messages

/-! Exact forms of C02, C22, C31, C45, C46, C52 and C58, which are violated as they stand, and a violation of C71. -/

namespace Metro2

open Samples

/-! ### C02 -/

/-- C02, negative numbers with as many digits as fit behind the sign, or more: the sign and the leading digits are written. The number that is read back is the same if it
fits, else another one. With `C02_negative_rejected` this is all for fields of at least two bytes. -/
theorem C02_negative_cut (e : Field) (f : F) (v : Nat) (ht : e.typ = .numeric) (hN : 2 ≤ e.len) (hbig : 10 ^ (e.len - 2) ≤ v) (h64 : v ≤ 2 ^ 63) :
    ∃ k, (k = 0 ↔ v < 10 ^ (e.len - 1)) ∧ 10 ^ (e.len - 2) ≤ v / 10 ^ k ∧ v / 10 ^ k < 10 ^ (e.len - 1) ∧
      Reads e f (toStr e (some (.int (-(v : Int))))) (.int (-((v / 10 ^ k : Nat) : Int))) := by
  have hvpos : 0 < v := Nat.lt_of_lt_of_le (Nat.pow_pos (by decide)) hbig
  have hlt : e.len - 1 ≤ numDigits v := by
    rcases Nat.lt_or_ge (e.len - 2) (numDigits v) with h | h
    · omega
    · have h0 : 0 < numDigits v := by
        rw [← length_fmtNat]
        exact List.length_pos_iff.2 (fmtNat_ne_nil v)
      have := (numDigits_le_iff (by omega)).1 h; omega
  have htext : toStr e (some (.int (-(v : Int)))) = 45 :: (fmtNat v).take (e.len - 1) := by
    rw [toStr_some (by rintro ⟨-, h⟩; simp at h; omega)]
    simp only [valText, ht]
    obtain ⟨m, rfl⟩ : ∃ m, v = m + 1 := ⟨v - 1, by omega⟩
    have e1 : fmtInt (-((m + 1 : Nat) : Int)) = 45 :: fmtNat (m + 1) := rfl
    rw [fmtZeroStr_ascii (ascii_fmtInt _), e1]
    simp only [List.length_cons, length_fmtNat]
    rw [show e.len - (numDigits (m + 1) + 1) = 0 by omega]
    obtain ⟨l, hl⟩ : ∃ l, e.len = l + 1 := ⟨e.len - 1, by omega⟩
    simp [hl]
  have hval := digitsVal_take (fmtNat_all v) (e.len - 1)
  rw [digitsVal_fmtNat, length_fmtNat] at hval
  have hdig : ∀ c ∈ (fmtNat v).take (e.len - 1), isDigit c = true :=
    fun c hc => fmtNat_all v c (List.mem_of_mem_take hc)
  have hlen : ((fmtNat v).take (e.len - 1)).length = e.len - 1 := by
    rw [List.length_take, length_fmtNat]; omega
  have hdec : Spec.Decimal ((fmtNat v).take (e.len - 1)) (v / 10 ^ (numDigits v - (e.len - 1))) :=
    (spec_decimal_iff _ _).2 ⟨hdig, hval⟩
  have hlo : 10 ^ (e.len - 2) ≤ v / 10 ^ (numDigits v - (e.len - 1)) := by
    rw [Nat.le_div_iff_mul_le (Nat.pow_pos (by decide)), ← Nat.pow_add,
      show e.len - 2 + (numDigits v - (e.len - 1)) = numDigits v - 1 by omega]
    exact pow_numDigits_le hvpos
  have hhi : v / 10 ^ (numDigits v - (e.len - 1)) < 10 ^ (e.len - 1) := by
    rw [← hval]
    have := digitsVal_lt _ hdig
    rwa [hlen] at this
  have h1 : numDigits v - (e.len - 1) = 0 ↔ v < 10 ^ (e.len - 1) := by
    rw [← numDigits_le_iff (by omega)]
    omega
  refine ⟨numDigits v - (e.len - 1), h1, hlo, hhi, ?_⟩
  rw [htext]
  have hle : v / 10 ^ (numDigits v - (e.len - 1)) ≤ v := Nat.div_le_self _ _
  refine (reads_numeric_iff f ht).2 ⟨_, rfl, ⟨_, _, ?_, hdec, Or.inr (Or.inr ⟨rfl, rfl⟩)⟩, by omega, by omega, ?_⟩
  · intro h0; rw [h0] at hlen; simp at hlen; omega
  · intro _ h0
    have : 0 < 10 ^ (e.len - 2) := Nat.pow_pos (by decide)
    omega

/-- C02: in a field of one byte only the sign of a negative number is left, which is no number. -/
theorem C02_sign_alone (e : Field) (f : F) (v : Nat) (ht : e.typ = .numeric) (hN : e.len = 1) (hv : 0 < v) :
    Rejects e f (toStr e (some (.int (-(v : Int))))) := by
  have htext : toStr e (some (.int (-(v : Int)))) = [45] := by
    rw [toStr_some (by rintro ⟨-, h⟩; simp at h; omega)]
    simp only [valText, ht]
    obtain ⟨m, rfl⟩ : ∃ m, v = m + 1 := ⟨v - 1, by omega⟩
    have e1 : fmtInt (-((m + 1 : Nat) : Int)) = 45 :: fmtNat (m + 1) := rfl
    rw [fmtZeroStr_ascii (ascii_fmtInt _), e1, hN]
    simp
  rintro w hw
  obtain ⟨i, -, ⟨ds, n, hne, hd, h⟩, -⟩ := (reads_numeric_iff f ht).1 hw
  rw [htext] at h
  have hdig := ((spec_decimal_iff _ _).1 hd).1
  rcases h with ⟨h, -⟩ | ⟨h, -⟩ | ⟨h, -⟩
  · exact absurd (hdig 45 (by rw [← h]; simp)) (by decide)
  · simp at h
  · simp at h; exact hne h

/-- Case of `C02_negative_cut`. Minus 123 fits into four bytes and becomes minus 12 in three. -/
example : toStr ⟨0, 4, .numeric, false, false, .nullable⟩ (some (.int (-123))) = b! "-123" ∧
    toStr ⟨0, 3, .numeric, false, false, .nullable⟩ (some (.int (-123))) = b! "-12" := by
  decide +kernel

/-! ### C22 -/

/-- What is reported as the size of a data record in character format. -/
theorem baseCharacter_size {fs fs' : Fields} {g : Segs} {rec : Bytes} {isVar : Bool} {n : Int}
    (h : parseBaseCharacter fs {} rec isVar = ((fs', g), .ok n)) : n = if 0 < Spec.bdw fs' then Spec.bdw fs' else Spec.rdw fs' := by
  rw [parseBaseCharacter_eq] at h
  split at h
  · simp at h
  · generalize parseLoop baseSegmentCharacterFormat _ true rec 0 fs = r at h
    obtain ⟨fs2, o⟩ := r
    cases o with
    | some err => simp at h
    | none =>
      simp only at h
      generalize (if fs2.int .BlockDescriptorWord > 0 then 426 + 4 else 426) = off at h
      split at h
      · simp at h
      · generalize readApplicableSegments {} (List.drop off rec) isVar = q at h
        obtain ⟨g2, x⟩ := q
        cases x with
        | error err => simp at h
        | ok m =>
          simp only at h
          split at h
          · simp at h
          · split at h
            · simp at h
            · simp only [Prod.mk.injEq, Except.ok.injEq] at h
              obtain ⟨⟨rfl, rfl⟩, rfl⟩ := h
              rfl

/-- C22, exactly: the size that is reported is the block descriptor if it is positive, else the record descriptor. It covers what was read except
for variable-blocked character records with a block descriptor that is not positive, where nothing is compared; there it covers what was read exactly if the record
descriptor does. -/
theorem C22_iff (enc : Enc) (rec : Bytes) (isVar : Bool) (fs : Fields) (g : Segs) (n : Int)
    (h : (newBase enc).parse rec isVar = (.base enc fs g, .ok n)) :
    n = (if 0 < Spec.bdw fs then Spec.bdw fs else Spec.rdw fs) ∧
    ((0 < n ∧ (Spec.fixedLength enc fs + Spec.segsLength g : Nat) ≤ n) ↔
      (enc = .character ∧ isVar = true ∧ Spec.bdw fs ≤ 0 → (Spec.fixedLength enc fs + Spec.segsLength g : Nat) ≤ Spec.rdw fs)) := by
  have hn : n = (if 0 < Spec.bdw fs then Spec.bdw fs else Spec.rdw fs) := by
    cases enc with
    | character => exact baseCharacter_size (newBase_parse_character.1 h)
    | packed =>
      obtain ⟨-, -, -, -, -, h5, h6⟩ := parseBasePacked_inv (zeroFields_typed _) (newBase_parse_packed.1 h)
      have : n = Spec.bdw fs := h5
      rw [if_pos (by omega)]; exact this
  refine ⟨hn, fun hc hq => ?_, fun hc => ?_⟩
  · rw [if_neg (by omega)] at hn
    rw [← hn]; exact hc.2
  · by_cases hq : enc = .character ∧ isVar = true ∧ Spec.bdw fs ≤ 0
    · have := hc hq
      rw [if_neg (by omega)] at hn
      rw [← hn] at this
      refine ⟨?_, this⟩
      have hpos : 0 < Spec.fixedLength enc fs := by unfold Spec.fixedLength Spec.recordLength; cases enc <;> simp
      omega
    · refine C22_reported_partial enc rec isVar fs g n h fun h1 h2 => ?_
      by_contra h3
      exact hq ⟨h1, h2, by omega⟩

/-- Non-vacuity: a negative block descriptor and a record descriptor that does not cover the record, and one that does. -/
example : (newBase .character).parse (b! "-001" ++ spliced 0 0 "-500") true = (.base .character (base (-1) (-500)) {}, .ok (-500)) ∧
    (newBase .character).parse (b! "-001" ++ spliced 0 0 "0500") true = (.base .character (base (-1) 500) {}, .ok 500) := by
  decide +kernel

/-! ### C31 -/

/-- The payment history profile of a data record has no 'Z'. -/
def Spec.NoZ (fs : Fields) : Prop := ∀ p, (.PaymentHistoryProfile, .str p) ∈ fs → 'Z'.toNat.toUInt8 ∉ p

/-- C31, exactly, for data records: what is valid in packed form is what is valid in character form and has no 'Z'. -/
theorem C31_record_iff (fs : Fields) (g : Segs) (ht : fs.Typed baseSegmentStruct) :
    (Record.base .packed fs g).validate = none ↔ (Record.base .character fs g).validate = none ∧ Spec.NoZ fs := by
  rw [C55_packed_partial fs g ht, C55_character fs g ht]
  constructor
  · intro h
    refine ⟨{ h with history := fun s hs => ?_ }, fun p hp hz => ?_⟩
    · obtain ⟨h1, h2⟩ := h.history s hs
      exact ⟨h1, fun c hc => (List.mem_filter.1 (h2 c hc)).1⟩
    · have := (List.mem_filter.1 ((h.history p hp).2 _ hz)).2
      simp at this
  · rintro ⟨h, hz⟩
    refine { h with history := fun s hs => ?_ }
    obtain ⟨h1, h2⟩ := h.history s hs
    refine ⟨h1, fun c hc => List.mem_filter.2 ⟨h2 c hc, ?_⟩⟩
    rw [decide_eq_true_eq]
    rintro rfl
    exact hz s hs hc

/-- C31, exactly, for files: converted to packed form, a file is valid if and only if it is valid converted to character form and none of its data
records has a 'Z' in its payment history. -/
theorem C31_file_iff {f : File} (hu : Spec.Uniform f) (ht : Spec.TypedFile f) :
    (f.setType Enc.packed.name).1.validate = none ↔
      (f.setType Enc.character.name).1.validate = none ∧ ∀ enc fs g, Record.base enc fs g ∈ f.bases → Spec.NoZ fs := by
  have htot : ∀ dst t, Spec.total t (f.bases.map (Spec.inFormat dst)) = Spec.total t f.bases := by
    intro dst t
    have := setType_weights (C33_setType hu dst) t
    simp only at this
    rw [Spec.total, Spec.total, ← this]
  have hfields : ∀ dst, (Spec.inFormat dst f.trailer).fields = f.trailer.fields := by intro dst; cases f.trailer <;> rfl
  have hh : (Spec.inFormat .character f.header).validate = (Spec.inFormat .packed f.header).validate := by
    obtain ⟨fs, he⟩ := hu.header
    exact C31_same_verdict_partial _ ht.header (by rw [he]; intro _ _ _ h; cases h)
  have htr : (Spec.inFormat .character f.trailer).validate = (Spec.inFormat .packed f.trailer).validate := by
    obtain ⟨fs, he⟩ := hu.trailer
    exact C31_same_verdict_partial _ ht.trailer (by rw [he]; intro _ _ _ h; cases h)
  have hbase : (∀ r ∈ f.bases.map (Spec.inFormat .packed), r.validate = none) ↔
      (∀ r ∈ f.bases.map (Spec.inFormat .character), r.validate = none) ∧ ∀ enc fs g, Record.base enc fs g ∈ f.bases → Spec.NoZ fs := by
    simp only [List.mem_map, forall_exists_index, and_imp, forall_apply_eq_imp_iff₂]
    have key : ∀ r ∈ f.bases, ∃ fs g, r = .base f.format fs g ∧ fs.Typed baseSegmentStruct := by
      intro r hr
      obtain ⟨fs, g, rfl⟩ := hu.bases r hr
      exact ⟨fs, g, rfl, ht.bases _ hr⟩
    constructor
    · intro h
      refine ⟨fun r hr => ?_, fun enc fs g hr => ?_⟩
      · obtain ⟨fs, g, rfl, h1⟩ := key r hr
        exact ((C31_record_iff fs g h1).1 (h _ hr)).1
      · obtain ⟨fs', g', he, h1⟩ := key _ hr
        cases he
        exact ((C31_record_iff fs g h1).1 (h _ hr)).2
    · rintro ⟨h1, h2⟩ r hr
      obtain ⟨fs, g, rfl, h3⟩ := key r hr
      exact (C31_record_iff fs g h3).2 ⟨h1 _ hr, h2 _ fs g hr⟩
  rw [C33_setType hu, C33_setType hu, C27_validate (uniform_inFormat hu _).bases, C27_validate (uniform_inFormat hu _).bases]
  simp only [htot, hfields]
  rw [hbase, hh, htr]
  constructor
  · rintro ⟨a, b, ⟨c, d⟩, e⟩; exact ⟨⟨a, b, c, e⟩, d⟩
  · rintro ⟨⟨a, b, c, e⟩, d⟩; exact ⟨a, b, ⟨c, d⟩, e⟩

/-- Case of `C31_record_iff`. Non-vacuity: a record without 'Z' and one with it. -/
example : Spec.NoZ (base 430 426) ∧ ¬ Spec.NoZ (zRecord .character).fields ∧ (zRecord .character).validate = none := by
  refine ⟨?_, ?_, by decide +kernel⟩
  · have h : ((base 430 426).all fun p => match p with
      | (.PaymentHistoryProfile, .str p) => !p.contains 'Z'.toNat.toUInt8
      | _ => true) = true := by decide +kernel
    intro p hp hz
    have := List.all_eq_true.1 h _ hp
    simp at this
    exact this hz
  · intro h
    exact h (b! "BZBBBBBBBBBBBBBBBBBBBBBB") (by decide +kernel) (by decide +kernel)

/-! ### C45 -/

/-- C45, exactly: with the JSON decoder of the Go library, a well-formed file without CR and LF bytes in its records is read as itself if and only if there is no brace among the first
1024 bytes of its text. -/
theorem C45_iff (env : JsonEnv) (visits : Nat → List (Bytes × Json) → List (Bytes × Json)) (hv : Spec.MapOrders visits) (enc : Enc) (isVar : Bool)
    (f : File) (h : Spec.GoodFile enc isVar f) (hb : ∀ t ∈ Spec.recordTexts f, Spec.NoBreaks t) (nl : Bool) (p : Plan) (hp : p.Progress) :
    newFileFromReader (readJson env visits firstJson) p (f.string nl) false = .ok f ↔ ¬ Spec.EarlyBrace (f.string nl) := by
  refine ⟨fun hr hj => ?_, fun hj => C45_raw_partial enc isVar f h hb nl hj _ p hp⟩
  by_cases hs : enc = .packed ∧ Spec.bdw f.header.fields = 31613
  · obtain ⟨rfl, hs⟩ := hs
    have hfmt := h.format
    rw [newFile_json _ p hj] at hr
    obtain ⟨fs, h1, hh⟩ := h.header
    obtain ⟨X, hX, -⟩ := header_shape hh
    have hvar := hh.packed rfl
    subst hvar
    rw [h1] at hs
    have hs : Spec.bdw fs = 31613 := hs
    have ht : ∃ Y, f.string nl = [] ++ (b! "{}" ++ Y) := by
      rw [File.string_eq, show Spec.recordTexts f = f.header.string :: (f.bases.map Record.string ++ [f.trailer.string]) from rfl,
        joinRecords_cons, h1, hX, if_pos rfl, hs]
      rw [show firstWord .packed 31613 = b! "{}" ++ [0, 0] by decide +kernel]
      simp only [List.append_assoc, List.nil_append]
      exact ⟨_, rfl⟩
    obtain ⟨Y, hY⟩ := ht
    have hf := firstJson_obj (r := Y) space_nil emptyObject
    unfold readJson at hr
    rw [hY, hf] at hr
    have hnil : visits 0 [] = [] := List.perm_nil.1 (hv 0 [])
    have hd : (newFile .character).ofJson env visits (.obj []) = some (newFile .character) := by
      unfold File.ofJson
      rw [show decodeMap env (.obj []) = some [] from rfl]
      simp only [hnil]
      rfl
    have hq : decodeDummy env (.obj []) = some none := rfl
    simp only [hq, detectFormat, hd, Except.ok.injEq] at hr
    rw [← hr] at hfmt
    exact absurd hfmt (by decide)
  · obtain ⟨e, he⟩ := C45_brace_rejected enc isVar f h (fun h1 h2 => hs ⟨h1, h2⟩) nl hj _ (C67_rejects_raw env visits) p
    rw [he] at hr
    cases hr

/-- Non-vacuity: both sides hold for the first file and fail for the second, in which a name contains a brace. -/
example (p : Plan) (hp : p.Progress) :
    newFileFromReader (readJson isoEnv backwards firstJson) p (packedFile.string true) false = .ok packedFile ∧
    newFileFromReader (readJson isoEnv backwards firstJson) p (braceFile.string true) false ≠ .ok braceFile :=
  ⟨(C45_iff isoEnv backwards backwards_ok .packed true packedFile packedFile_good packedFile_noBreaks true p hp).2 (packedFile_noBrace true),
   fun h => (C45_iff isoEnv backwards backwards_ok .character false braceFile braceFile_good (goodFile_noBreaks braceFile_good) true p hp).1 h
     (by decide +kernel)⟩

/-! ### C46 -/

/-- C46, exactly: if the records of the converted file have the lengths that they announce, it comes back if and only if it is well-formed in the packed format
and its records contain no CR and no LF byte. -/
theorem C46_iff (f : File) (h : Spec.GoodFile .character true f) (hm : Spec.Measured (f.setType "packed".toUTF8.data.toList).1) (nl : Bool)
    (hj : ¬ Spec.EarlyBrace ((f.setType "packed".toUTF8.data.toList).1.string nl)) (json : Bytes → Except Err File) (p : Plan)
    (hp : p.Progress) :
    newFileFromReader json p ((f.setType "packed".toUTF8.data.toList).1.string nl) false = .ok (f.setType "packed".toUTF8.data.toList).1 ↔
      Spec.GoodFile .packed true (f.setType "packed".toUTF8.data.toList).1 ∧
      ∀ t ∈ Spec.recordTexts (f.setType "packed".toUTF8.data.toList).1, Spec.NoBreaks t := by
  have hset := C33_setType (good_uniform h) .packed
  rw [show Enc.packed.name = "packed".toUTF8.data.toList from by decide +kernel] at hset
  rw [hset] at hm hj ⊢
  obtain ⟨tfs, h2, htr⟩ := h.trailer
  obtain ⟨fs, h1, hh⟩ := h.header
  have hv : Spec.isBlocked ⟨.packed, Spec.inFormat .packed f.header, f.bases.map (Spec.inFormat .packed),
      Spec.inFormat .packed f.trailer⟩ = true := by
    have hb := hh.bdw
    simp only [if_true] at hb
    simp only [Spec.isBlocked, h1, Spec.inFormat]
    have : Spec.bdw (Spec.valuesOf (.header .packed fs)) = Spec.bdw fs := rfl
    rw [this]
    simp only [decide_eq_true_eq]
    omega
  rw [C90_iff _ hm (by simp only [h2]; exact htr.ident) nl hj json p hp, hv]

/-- Non-vacuity: a file that can be converted, written and read. -/
example (nl : Bool) (json : Bytes → Except Err File) (p : Plan) (hp : p.Progress) :
    newFileFromReader json p ((variableFile.setType "packed".toUTF8.data.toList).1.string nl) false =
      .ok (variableFile.setType "packed".toUTF8.data.toList).1 := by
  have hs : (variableFile.setType "packed".toUTF8.data.toList).1 = Spec.fileIn .packed variableFile := by
    have := C33_setType (good_uniform variableFile_good) .packed
    rw [show Enc.packed.name = "packed".toUTF8.data.toList from by decide +kernel] at this
    rw [this]; rfl
  have hg : Spec.GoodFile .packed true (Spec.fileIn .packed variableFile) :=
    goodFile_convert variableFile_good (fun r hr => noNegative_of (by revert r hr; decide +kernel)) (by decide +kernel)
  refine (C46_iff variableFile variableFile_good (by rw [hs]; exact goodFile_measured hg) nl (by rw [hs]; cases nl <;> decide +kernel) json p hp).2 ?_
  rw [hs]
  exact ⟨hg, by decide +kernel⟩

/-! ### C52 -/

/-- C52, exactly: a failure of the input is reported if and only if less than 1024 bytes came before it, or what came is refused as a complete input would be. -/
theorem C52_iff (json : Bytes → Except Err File) (p : Plan) (data : Bytes) :
    (∃ e, newFileFromReader json p data true = .error e) ↔
      data.length < 1024 ∨ ∃ e, newFileFromReader json p data false = .error e := by
  by_cases h : data.length < 1024
  · exact ⟨fun _ => .inl h, fun _ => ⟨.io, C52_early_partial json p data h⟩⟩
  · have h1 : ∀ q : Prop, ¬ (data.length < 1024 ∧ q) := fun q hq => h hq.1
    have : newFileFromReader json p data true = newFileFromReader json p data false := by
      unfold newFileFromReader
      rw [if_neg (h1 _), if_neg (h1 _)]
    rw [this]
    exact ⟨.inr, fun hq => hq.elim (fun hl => (h hl).elim) id⟩

/-! ### C58 -/

theorem mem_set_other {fs : Fields} {f g : F} (h : g ≠ f) (v w : Val) : (g, w) ∈ fs.set f v ↔ (g, w) ∈ fs := by
  unfold Fields.set
  rw [List.mem_map]
  constructor
  · rintro ⟨p, hp, he⟩
    split at he
    · next hq => cases he; exact (h hq).elim
    · rw [← he]; exact hp
  · intro hm
    exact ⟨_, hm, if_neg h⟩

/-- C58, exactly: another payment history profile in a valid data record keeps it valid if and only if it has 24 values, all of them documented or
blank or, in character form, 'Z'. -/
theorem C58_iff (enc : Enc) (fs : Fields) (g : Segs) (ht : fs.Typed baseSegmentStruct) (hv : (Record.base enc fs g).validate = none)
    (s : List UInt8) :
    (Record.base enc (fs.set .PaymentHistoryProfile (.str s)) g).validate = none ↔
      s.length = 24 ∧ ∀ c ∈ s, c ∈ Spec.documentedHistory ∨ (c = 'Z'.toNat.toUInt8 ∧ enc = .character) ∨ c = ' '.toNat.toUInt8 := by
  have ht' : (fs.set .PaymentHistoryProfile (.str s)).Typed baseSegmentStruct := by
    refine ht.set fun d hd => ?_
    have hall : (baseSegmentStruct.all fun p => if p.1 = .PaymentHistoryProfile then (Val.str []).hasKind p.2.kind else true) = true := by
      decide +kernel
    have := List.all_eq_true.1 hall _ hd
    rw [if_pos rfl] at this
    revert this
    cases d.kind <;> exact id
  have hin : (F.PaymentHistoryProfile, Val.str s) ∈ fs.set .PaymentHistoryProfile (.str s) := by
    have h1 : F.PaymentHistoryProfile ∈ fs.map Prod.fst := by rw [ht.names]; decide +kernel
    obtain ⟨p, hp, he⟩ := List.mem_map.1 h1
    unfold Fields.set
    exact List.mem_map.2 ⟨p, hp, by rw [if_pos he, he]⟩
  refine ⟨fun h => C58_values_partial enc _ g ht' h s hin, fun ⟨h24, hc⟩ => ?_⟩
  have only : ∀ v, (F.PaymentHistoryProfile, v) ∈ fs.set .PaymentHistoryProfile (.str s) → v = .str s := by
    intro v hm
    unfold Fields.set at hm
    obtain ⟨p, -, he⟩ := List.mem_map.1 hm
    split at he
    · exact ((Prod.mk.inj he).2).symm
    · next hq => rw [he] at hq; exact (hq rfl).elim
  have rules : ∀ history : List UInt8, (∀ c ∈ s, c ∈ history) → Spec.BaseRules history fs →
      Spec.BaseRules history (fs.set .PaymentHistoryProfile (.str s)) := by
    intro history hs h
    have pick : ∀ {f : F} {w : Val}, (f, w) ∈ fs.set .PaymentHistoryProfile (.str s) → f ≠ .PaymentHistoryProfile → (f, w) ∈ fs :=
      fun hm hf => (mem_set_other hf _ _).1 hm
    refine ⟨fun f hf v hm => ?_, fun i hm => h.correction i (pick hm (by decide)), fun i hm => h.identification i (pick hm (by decide)),
      fun i hm => h.portfolio i (pick hm (by decide)), fun i hm => h.terms i (pick hm (by decide)),
      fun i hm => h.frequency i (pick hm (by decide)),
      fun a b hm hm' => h.rating a b (pick hm (by decide)) (pick hm' (by decide)), fun t hm => ?_,
      fun i hm => h.interest i (pick hm (by decide)),
      fun a b c h1 h2 h3 => h.identified a b c (pick h1 (by decide)) (pick h2 (by decide)) (pick h3 (by decide)),
      fun i hm => h.status i (pick hm (by decide)), fun i hm => h.account i (pick hm (by decide)), fun i hm => h.comment i (pick hm (by decide))⟩
    · by_cases hp : f = .PaymentHistoryProfile
      · subst hp
        rw [only v hm]
        intro he
        rw [he] at h24
        cases h24
      · exact h.mandatory f hf v (pick hm hp)
    · cases only _ hm
      exact ⟨h24, hs⟩
  cases enc with
  | character =>
    rw [C55_character _ g ht']
    refine rules _ (fun c hm => ?_) ((C55_character fs g ht).1 hv)
    have : ∀ c ∈ Spec.documentedHistory, c ∈ Spec.historyCodes := by decide +kernel
    rcases hc c hm with h | h | h
    · exact this c h
    · rw [h.1]; decide +kernel
    · rw [h]; decide +kernel
  | packed =>
    rw [C55_packed_partial _ g ht']
    refine rules _ (fun c hm => ?_) ((C55_packed_partial fs g ht).1 hv)
    have : ∀ c ∈ Spec.documentedHistory, c ∈ Spec.historyCodes.filter (· ≠ 'Z'.toNat.toUInt8) := by decide +kernel
    rcases hc c hm with h | h | h
    · exact this c h
    · cases h.2
    · rw [h]; decide +kernel

/-- Non-vacuity: a valid record of either form. -/
example : typedB baseSegmentStruct (base 430 426) = true ∧ ∀ enc, (Record.base enc (base 430 426) {}).validate = none :=
  ⟨by decide +kernel, fun enc => by cases enc <;> decide +kernel⟩

/-! ### C71 -/

/-- C71 is violated: the text of an error accuses the data record, while the field at fault is that of a J1 segment; the data record alone is read and valid. -/
theorem C71_violated : ∃ rec msg, (newBase .character).parseText rec false = some msg ∧
    Spec.Accuses msg .SocialSecurityNumber (.base .character) .invalid ∧
    (∃ s n, (Seg.new .j1).parse (rec.drop 426) false = (s, .ok n) ∧ s.validate = some (.invalidValue .SocialSecurityNumber)) ∧
    ∃ r, (newBase .character).parse (rec.take 426 ++ List.replicate 100 32) false = (r, .ok 526) ∧ r.validate = none :=
  ⟨badJ1, b! "social security number in base segment has an invalid value", by decide +kernel,
    ⟨b! "social security number", by decide +kernel, by decide +kernel⟩,
    ⟨⟨.j1, j1'.fields.set .DateBirth (.time Time.zero)⟩, 100, by decide +kernel, by decide +kernel⟩,
    .base .character (base 0 526) {}, by decide +kernel, by decide +kernel⟩

/-- Case of `C52_iff`: a text that is long enough. -/
example : ¬ (fixedFile.string true).length < 1024 ∧ newFileFromReader (fun _ => .error .io) slow (fixedFile.string true) false = .ok fixedFile :=
  ⟨by decide +kernel, C41_read false _ fixedFile_good true (fixedFile_noBrace true) _ _ slow_progress⟩

end Metro2
